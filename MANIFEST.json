{
 "claims": [
  {
   "property": "C01",
   "status": "proved",
   "theorems": [
    "Faster.C01_map_collect"
   ],
   "note": ""
  },
  {
   "property": "C02",
   "status": "proved",
   "theorems": [
    "Faster.C02_do_each_calls",
    "Faster.C02_do_each_log",
    "Faster.C05_collect_any_closure",
    "Faster.C03_reduce_fold",
    "Faster.C02_map_reduce",
    "Faster.C02_map_do_each",
    "Faster.C02_at"
   ],
   "note": "C02_at says what simd_do_each does at every position of an iterator which has been used before."
  },
  {
   "property": "C03",
   "status": "proved",
   "theorems": [
    "Faster.C03_reduce_fold",
    "Faster.C03_reduce_foldl",
    "Faster.C03_reduce_empty",
    "Faster.C03_at"
   ],
   "note": "C03_at says what simd_reduce does at every position of an iterator which has been used before."
  },
  {
   "property": "C04",
   "status": "proved",
   "theorems": [
    "Faster.C04_monoid_reduce"
   ],
   "note": ""
  },
  {
   "property": "C05",
   "status": "proved",
   "theorems": [
    "Faster.C05_collect_any_closure",
    "Faster.C05_length"
   ],
   "note": ""
  },
  {
   "property": "C06",
   "status": "proved",
   "theorems": [
    "Faster.C06_widening_collect"
   ],
   "note": ""
  },
  {
   "property": "C07",
   "status": "proved",
   "theorems": [
    "Faster.C07_fill_any_closure",
    "Faster.C07_fill"
   ],
   "note": ""
  },
  {
   "property": "C08",
   "status": "partial",
   "theorems": [
    "Faster.C08_fill_out_of_bounds",
    "Faster.C08_false",
    "Faster.C08_fill_short_panics_partial",
    "Faster.C08_fill_outcome",
    "Faster.C08_ub_iff",
    "Faster.C08_fill_driver",
    "Faster.C08_fill_stride",
    "Faster.C08_ub_driver",
    "Faster.C08_fill_zip",
    "Faster.C08_fill_at",
    "Faster.C08_fill_at_slice",
    "Faster.C08_fill_at_stride",
    "Faster.C08_ub_at",
    "Faster.C08_plain_at",
    "Faster.C08_zip_at"
   ],
   "note": "The property is false for the code: C08_false is a counterexample. C08_fill_outcome gives the exact outcome for every buffer, every closure and all sizes of vectors, C08_ub_iff the exact condition for undefined behaviour; C08_fill_driver, C08_fill_stride and C08_fill_zip the same for strided iterators and zips, and C08_*_at for iterators which have been advanced to any position; the partial theorem covers the destinations which are rejected by a panic."
  },
  {
   "property": "C09",
   "status": "partial",
   "theorems": [
    "Faster.C09_collect_at",
    "Faster.C09_false",
    "Faster.C09_collect_initialised_partial",
    "Faster.C09_map_driver",
    "Faster.C09_map_slice",
    "Faster.C09_map_uninit_iff",
    "Faster.C09_map_stride",
    "Faster.C09_map_zip",
    "Faster.C09_collect_any",
    "Faster.C09_collect_any_slice",
    "Faster.C09_initialised_iff",
    "Faster.C09_plain_at",
    "Faster.C09_plain_stride",
    "Faster.C09_zip_any"
   ],
   "note": "False for an iterator which has been advanced before scalar_collect: the Vec exposes uninitialised elements (C09_false, C09_collect_at); the partial theorem covers fresh iterators. C09_map_* give the exact result of maps at every position; C09_map_uninit_iff says exactly when elements are uninitialised. C09_collect_any, C09_plain_at and C09_zip_any give the result at every position, also behind the end, for all sizes of vectors; C09_initialised_iff says exactly when it is an initialised Vec."
  },
  {
   "property": "C10",
   "status": "proved",
   "theorems": [
    "Faster.C10_for_each_any_closure",
    "Faster.C10_for_each"
   ],
   "note": ""
  },
  {
   "property": "C11",
   "status": "partial",
   "theorems": [
    "Faster.C11_for_each_consumed",
    "Faster.C11_false",
    "Faster.C11_for_each_remaining_partial",
    "Faster.C11_any_closure_partial",
    "Faster.C11_panic_partial",
    "Faster.C11_consumed_panic",
    "Faster.C11_small_rest"
   ],
   "note": "False for a partly consumed iterator: a rest shorter than a vector makes simd_for_each overwrite consumed elements or panic (C11_for_each_consumed, C11_false), or fail before the closure is called (C11_small_rest). C11_any_closure_partial, C11_panic_partial and these theorems give the outcome at every position for closures with state which may panic."
  },
  {
   "property": "C12",
   "status": "proved",
   "theorems": [
    "Faster.C12_for_each_panic",
    "Faster.C11_panic_partial",
    "Faster.C11_consumed_panic"
   ],
   "note": "C11_panic_partial and C11_consumed_panic: also on iterators which have been consumed in part."
  },
  {
   "property": "C13",
   "status": "partial",
   "theorems": [
    "Faster.C13_end_out_of_bounds",
    "Faster.C13_false",
    "Faster.C13_end_safe_partial",
    "Faster.C13_end_ub_iff",
    "Faster.C13_stride_ub_iff",
    "Faster.C13_adapter_ub_iff",
    "Faster.C13_map_ub_iff",
    "Faster.C13_zip_ub_iff",
    "Faster.C13_zip_map_ub_iff"
   ],
   "note": "False: from a position inside a slice of at most one vector, end() writes lanes outside its vector (C13_end_out_of_bounds, C13_false). C13_*_ub_iff give the exact positions for slices, strided iterators, adapters, zips of equal lengths, and maps."
  },
  {
   "property": "C14",
   "status": "partial",
   "theorems": [
    "Faster.C14_end_contents_partial",
    "Faster.C14_lanes",
    "Faster.C14_false",
    "Faster.C14_iff",
    "Faster.C14_stride_iff",
    "Faster.C14_zip_iff",
    "Faster.C14_adapter_iff"
   ],
   "note": "False inside of a collection which is not longer than a vector, because of C13, and for adapters, which hand the rest out backwards. C14_iff, C14_stride_iff and C14_zip_iff say that it holds everywhere else where at most one vector of elements is left; with more left, end() panics."
  },
  {
   "property": "C15",
   "status": "partial",
   "theorems": [
    "Faster.C15_next_none",
    "Faster.C15_end_partial",
    "Faster.C15_end_any",
    "Faster.C15_map",
    "Faster.C15_reduce",
    "Faster.C15_do_each",
    "Faster.C15_after_pass",
    "Faster.C15_false",
    "Faster.C15_map_end",
    "Faster.C15_map_next_none",
    "Faster.C15_zip_end",
    "Faster.C15_stride_next_none",
    "Faster.C15_stride_end",
    "Faster.C15_adapter_next_none",
    "Faster.C15_adapter_end",
    "Faster.C15_zip",
    "Faster.C15_zip_end_first",
    "Faster.C15_zip_stride_end",
    "Faster.C15_zip_reduce",
    "Faster.C15_zip_do_each",
    "Faster.C15_zip_map",
    "Faster.C15_stride_zip_next_none",
    "Faster.C15_stride_zip_end",
    "Faster.C15_stride_zip_trace"
   ],
   "note": "False only for an iterator advanced to less than a vector below usize::MAX: after end returned None, next panics (C15_false); nothing is ever handed out again (C15_end_any). Proved for slices, strides, adapters, stride_zips, and maps and zips of them, at positions below that."
  },
  {
   "property": "C16",
   "status": "partial",
   "theorems": [
    "Faster.C16_len",
    "Faster.C16_len_wrong",
    "Faster.C16_false",
    "Faster.C16_len_fresh_partial",
    "Faster.C16_driver",
    "Faster.C16_slice_iff",
    "Faster.C16_stride_iff",
    "Faster.C16_map_iff",
    "Faster.C16_zip",
    "Faster.C16_stride_zip",
    "Faster.C16_stride_zip_iff",
    "Faster.C16_adapter",
    "Faster.C16_adapter_iff",
    "Faster.C16_at",
    "Faster.C16_slice_at_iff",
    "Faster.C16_stride_at",
    "Faster.C16_zip_at"
   ],
   "note": "False for every iterator which has returned a vector: len() does not decrease (C16_len_wrong). C16_slice_iff, C16_stride_iff, C16_stride_zip_iff and C16_adapter_iff give the exact condition; a fresh stride can be wrong too, because it keeps a full last vector for end, and so can a fresh adapter. C16_at, C16_slice_at_iff, C16_stride_at and C16_zip_at are about every position, also behind the end."
  },
  {
   "property": "C17",
   "status": "proved",
   "theorems": [
    "Faster.C17_load",
    "Faster.C17_store",
    "Faster.C17_load_store",
    "Faster.C17_store_load",
    "Faster.C17_unchecked"
   ],
   "note": ""
  },
  {
   "property": "C18",
   "status": "proved",
   "theorems": [
    "Faster.C18_unpack",
    "Faster.C18_pack_resumes",
    "Faster.C18_unpack_any",
    "Faster.C18_stride",
    "Faster.C18_stride_pack"
   ],
   "note": ""
  },
  {
   "property": "C19",
   "status": "proved",
   "theorems": [
    "Faster.C19_unroll",
    "Faster.C19_unroll_slice",
    "Faster.C19_unroll_too_many",
    "Faster.C19_chunksOf"
   ],
   "note": ""
  },
  {
   "property": "C20",
   "status": "partial",
   "theorems": [
    "Faster.C20_chunk_overwritten",
    "Faster.C20_false",
    "Faster.C20_chunk_until_next_partial"
   ],
   "note": "False: each chunk aliases the scratch buffer of the iterator and is overwritten by the following next()."
  },
  {
   "property": "C21",
   "status": "proved",
   "theorems": [
    "Faster.C21_zip_two",
    "Faster.C21_zip_two_any",
    "Faster.C21_zip_every_arity",
    "Faster.C21_zip_general"
   ],
   "note": ""
  },
  {
   "property": "C22",
   "status": "partial",
   "theorems": [
    "Faster.C22_zip_check",
    "Faster.C22_false",
    "Faster.C22_zip_rejects_partial",
    "Faster.C123_zip_many"
   ],
   "note": "False: the check compares numbers of full vectors, so lengths which differ within the last vector, or collections of different lane widths, are accepted (C22_zip_check is the exact condition; C123_zip_many for any number of slices)."
  },
  {
   "property": "C23",
   "status": "partial",
   "theorems": [
    "Faster.C23_tail_out_of_bounds",
    "Faster.C23_width_out_of_bounds",
    "Faster.C23_false",
    "Faster.C23_zip_safe_partial",
    "Faster.C23_next_partial",
    "Faster.C23_next_exact",
    "Faster.C23_end_exact",
    "Faster.C23_ub_iff",
    "Faster.C147_many_outcome"
   ],
   "note": "False for collections of different lengths or widths accepted by zip; holds for equal lengths and widths. C23_ub_iff gives exactly the lengths, widths and positions of two slices for which next or end is undefined behaviour; C147_many_outcome what becomes of a complete pass over any number of slices."
  },
  {
   "property": "C24",
   "status": "proved",
   "theorems": [
    "Faster.C24_zip_do_each",
    "Faster.C24_zip_reduce",
    "Faster.C24_zip_do_each_general",
    "Faster.C24_zip_reduce_general",
    "Faster.C24_calls_columns",
    "Faster.C24_do_each_at",
    "Faster.C24_reduce_at"
   ],
   "note": "C24_do_each_at and C24_reduce_at: at every position of the first iterator."
  },
  {
   "property": "C28",
   "status": "proved",
   "theorems": [
    "Faster.C28_zip_strides",
    "Faster.C28_tuples"
   ],
   "note": "Strides s with len + s * (WIDTH + 1) below the usize range; a larger stride would need more default vectors than fit in memory (stride_into asserts their number)."
  },
  {
   "property": "C56",
   "status": "partial",
   "theorems": [
    "Faster.C56_zip_ignores_positions",
    "Faster.C56_zip_built",
    "Faster.C56_moved_next",
    "Faster.C56_moved_end",
    "Faster.C56_moved_rest",
    "Faster.C56_iff",
    "Faster.C56_partial",
    "Faster.C56_false"
   ],
   "note": "False: only the first iterator's position is used; moving the others changes nothing, for zips of any number of iterators (C56_moved_next, C56_moved_end). C56_iff says when the tuple is right nevertheless, C56_partial that it is if all positions are equal."
  },
  {
   "property": "C25",
   "status": "proved",
   "theorems": [
    "Faster.C25_stride_into",
    "Faster.C25_stride_into_panics",
    "Faster.C25_stride_tuples",
    "Faster.C25_stride_calls",
    "Faster.C25_stride_reduce",
    "Faster.C25_stride_collect_any",
    "Faster.C25_stride_collect"
   ],
   "note": "Strides s with len + s * (WIDTH + 1) below the usize range; a larger stride would need more default vectors than fit in memory (stride_into asserts their number)."
  },
  {
   "property": "C26",
   "status": "partial",
   "theorems": [
    "Faster.C26_stride_delivered",
    "Faster.C26_false",
    "Faster.C26_stride_complete_partial"
   ],
   "note": "False when the stride does not divide the length: the last len % stride elements are delivered by no iterator (C26_stride_delivered says exactly which are)."
  },
  {
   "property": "C27",
   "status": "partial",
   "theorems": [
    "Faster.C27_stride_next_safe",
    "Faster.C27_stride_end_safe",
    "Faster.C27_stride_load_partial",
    "Faster.C27_load_release",
    "Faster.C27_false",
    "Faster.stride_end_exact",
    "Faster.C13_stride_ub_iff"
   ],
   "note": "False in release builds for the safe load with an offset whose index computation overflows usize (exact condition in C27_load_release; also C78_false). Also false for end inside of a stride which is not longer than a vector (C13_stride_ub_iff; stride_end_exact is end at every position). Proved for next and for end after a pass of iterators which have not been moved past the end, and for load if the computation does not overflow or overflow checks are on."
  },
  {
   "property": "C29",
   "status": "partial",
   "theorems": [
    "Faster.C29_stride_zip_calls",
    "Faster.C29_stride_zip_collect",
    "Faster.C29_stride_zip_lanewise",
    "Faster.C29_stride_zip_partial",
    "Faster.C29_length",
    "Faster.C29_tail_extra",
    "Faster.C29_tail_lost",
    "Faster.C29_tail_default",
    "Faster.C29_false"
   ],
   "note": "False unless the length is a multiple of two vectors: the tail returned by end() has the data in the wrong lanes. C29_stride_zip_calls and C29_stride_zip_lanewise give the exact behaviour for every length; destride_two is the polyfill (see C48)."
  },
  {
   "property": "C30",
   "status": "partial",
   "theorems": [
    "Faster.C30_adapter_exact",
    "Faster.C30_false",
    "Faster.C30_adapter_one_vector_partial",
    "Faster.C30_adapter_loses"
   ],
   "note": "False unless the iterator has zero or exactly width elements; C30_adapter_exact gives the outcome for every length."
  },
  {
   "property": "C31",
   "status": "partial",
   "theorems": [
    "Faster.C31_collect_all_always_bad",
    "Faster.C31_false",
    "Faster.C31_collect_all_empty_partial",
    "Faster.C31_driver",
    "Faster.C31_ok_iff",
    "Faster.C31_zip",
    "Faster.C31_at"
   ],
   "note": "False for every non-empty slice with vectors of two or more lanes. C31_driver and C31_zip give the exact outcome for maps with any closure; C31_ok_iff: a fresh map is collected correctly exactly if it is empty, or has results of one lane and no remainder."
  },
  {
   "property": "C32",
   "status": "proved",
   "theorems": [
    "Faster.C32_fill_all",
    "Faster.C32_driver",
    "Faster.C32_zip",
    "Faster.C32_at"
   ],
   "note": "C32_driver and C32_zip give the outcome for buffers of every size, C32_at at every position."
  },
  {
   "property": "C33",
   "status": "partial",
   "theorems": [
    "Faster.C33_lengths_slice_partial",
    "Faster.C33_stride_lengths",
    "Faster.C33_map_scalar_len_wrong",
    "Faster.C33_zip_scalar_len_wrong",
    "Faster.C33_stride_zip_lengths",
    "Faster.C33_false"
   ],
   "note": "False for every map and zip of a non-empty slice with vectors of at least two lanes: scalar_len is the number of vectors. Proved for slices, strides and stride_zip."
  },
  {
   "property": "C34",
   "status": "partial",
   "theorems": [
    "Faster.C34_advance_partial",
    "Faster.C34_finalize_partial",
    "Faster.C34_stride_advance",
    "Faster.C34_stride_from",
    "Faster.C34_map_finalize_wrong",
    "Faster.C34_map_not_finished",
    "Faster.C34_zip_finalize_wrong",
    "Faster.C34_stride_zip_advance",
    "Faster.C34_false",
    "Faster.C34_map_advance_partial",
    "Faster.C34_map_finalize",
    "Faster.C34_map_finalize_iff",
    "Faster.C34_map_finalize_ub",
    "Faster.C34_zip_finalize",
    "Faster.C34_stride_zip_finalize",
    "Faster.C34_stride_zip_finalize_iff",
    "Faster.C34_stride_zip_finalize_ub",
    "Faster.C34_advance_at",
    "Faster.C34_map_advance_at",
    "Faster.C34_finalize_at",
    "Faster.C34_finalize_exhausted",
    "Faster.C34_map_finalize_at",
    "Faster.C34_map_finalize_at_iff",
    "Faster.C34_zip_advance_at",
    "Faster.C34_zip_finalize_at"
   ],
   "note": "False for finalize of maps and zips, which moves them to the scalar whose number is the number of vectors, backwards if they stand behind it (C34_map_finalize, C34_zip_finalize); on a map of exactly one vector a following end is undefined behaviour (C34_map_finalize_ub). Also false for finalize of a stride_zip over an odd number of elements: exactly then something is delivered (C34_stride_zip_finalize_iff), and end is undefined behaviour if they fit in a vector (C34_stride_zip_finalize_ub). Proved for slices and strides, and for advance of all."
  },
  {
   "property": "C53",
   "status": "partial",
   "theorems": [
    "Faster.C53_coalesce_eq",
    "Faster.C53_coalesce_splat",
    "Faster.C53_coalesce",
    "Faster.C53_coalesce_float_partial",
    "Faster.C53_coalesce_float",
    "Faster.C53_false",
    "Faster.C53_scalar_reduce",
    "Faster.C53_product",
    "Faster.C53_extract_replace"
   ],
   "note": "False for NaN: in debug builds the coalesce of a constant vector of NaN panics, because the lanes are compared with the floating-point comparison. Proved for all other values, with the exact condition of the panic (zeros of both signs do not differ)."
  },
  {
   "property": "C55",
   "status": "partial",
   "theorems": [
    "Faster.C55_next",
    "Faster.C55_end_partial",
    "Faster.C55_end_exact",
    "Faster.C55_counts",
    "Faster.C55_do_each",
    "Faster.C55_reduce",
    "Faster.C55_fill_all",
    "Faster.C55_collect_all",
    "Faster.C55_fill_partial",
    "Faster.C55_collect_partial",
    "Faster.C55_zip_do_each",
    "Faster.C55_zip_reduce",
    "Faster.C55_zip_fill_partial",
    "Faster.C55_zip_collect_partial",
    "Faster.C55_false"
   ],
   "note": "False when the lane size of the intermediate type does not divide the tail bytes: the numbers of unfilled lanes may differ (exact numbers in C55_end_exact, exact condition in C55_counts). The vectors and the calls of the closures always agree. Consumers (over any iterator and any zip, whatever it does): simd_do_each, simd_reduce, scalar_fill_all and scalar_collect_all never tell the difference; scalar_fill and scalar_collect do not if the intermediate lane size divides the original one."
  },
  {
   "property": "C35",
   "status": "proved",
   "theorems": [
    "Faster.C35",
    "Faster.C35_halves_fallback",
    "Faster.C35_halves_blend",
    "Faster.C35_interleaved_fallback",
    "Faster.C35_interleaved_blend",
    "Faster.C35_partitioned_fallback",
    "Faster.C35_partitioned_blend",
    "Faster.C35_rows"
   ],
   "note": ""
  },
  {
   "property": "C36",
   "status": "partial",
   "theorems": [
    "Faster.C36_false",
    "Faster.C36_release_false",
    "Faster.C36_partial",
    "Faster.C36_exact"
   ],
   "note": "False: offset WIDTH panics in the fallback and is accepted by the blend version; in release builds the blend version also accepts larger offsets. C36_exact gives the result of the blend version for every offset."
  },
  {
   "property": "C37",
   "status": "partial",
   "theorems": [
    "Faster.C37_partial",
    "Faster.C37_constant_patterns",
    "Faster.C37_partition_mask",
    "Faster.C37_partition",
    "Faster.C37_large_offset",
    "Faster.C37_false",
    "Faster.C37_exact"
   ],
   "note": "All documented lanes are proved; the panic for larger offsets is false for the blend version in release builds (C37_false; C37_exact is its result for every offset)."
  },
  {
   "property": "C38",
   "status": "proved",
   "theorems": [
    "Faster.C38",
    "Faster.C38_swap_bytes",
    "Faster.C38_bytes",
    "Faster.C38_involution",
    "Faster.C38_conversions"
   ],
   "note": ""
  },
  {
   "property": "C48",
   "status": "partial",
   "theorems": [
    "Faster.C48_polyfill",
    "Faster.C48_ssse3",
    "Faster.C48_avx2",
    "Faster.C48_avx2_iff",
    "Faster.C48_false",
    "Faster.C48_partial",
    "Faster.destrideTwo_polyfill"
   ],
   "note": "False for u8x32/i8x32 with AVX2: the second result holds even lanes (C48_avx2 says exactly which). Proved for the polyfill and SSSE3."
  },
  {
   "property": "C49",
   "status": "proved",
   "theorems": [
    "Faster.C49"
   ],
   "note": ""
  },
  {
   "property": "C52",
   "status": "proved",
   "theorems": [
    "Faster.C52_roundtrip",
    "Faster.C52_set_bits",
    "Faster.C52_bytes",
    "Faster.C52_compose",
    "Faster.C52_injective",
    "Faster.C52_same_size"
   ],
   "note": ""
  },
  {
   "property": "C57",
   "status": "partial",
   "theorems": [
    "Faster.C57_false",
    "Faster.C57_partial",
    "Faster.C57_mask_outcome",
    "Faster.C57_iff"
   ],
   "note": "False in release builds for lanes wider than one byte and offsets close to 2^64; exactly for the offsets in C57_iff."
  },
  {
   "property": "C58",
   "status": "proved",
   "theorems": [
    "Faster.C58",
    "Faster.C58_involution"
   ],
   "note": ""
  },
  {
   "property": "C39",
   "status": "proved",
   "theorems": [
    "Faster.C39_add_optimized",
    "Faster.C39_sub_optimized",
    "Faster.C39_add_fallback",
    "Faster.C39_sub_fallback"
   ],
   "note": ""
  },
  {
   "property": "C40",
   "status": "proved",
   "theorems": [
    "Faster.C40_hadd_release",
    "Faster.C40_hsub_release",
    "Faster.C40_hadd_exact",
    "Faster.C40_hsub_exact",
    "Faster.C40_hadd_debug_overflow",
    "Faster.C40_hsub_debug_overflow",
    "Faster.C40_saturating_hadd",
    "Faster.C40_saturating_hsub",
    "Faster.C40_float_fallback",
    "Faster.C40_optimized_i16x8",
    "Faster.C40_optimized_i16x16",
    "Faster.C40_optimized_i32x4",
    "Faster.C40_optimized_i32x8",
    "Faster.C40_optimized_f32x4",
    "Faster.C40_optimized_f64x2",
    "Faster.C40_optimized_f64x4",
    "Faster.C40_optimized_saturating"
   ],
   "note": ""
  },
  {
   "property": "C50",
   "status": "proved",
   "theorems": [
    "Faster.C50_optimized",
    "Faster.C50_fallback",
    "Faster.C50_ne"
   ],
   "note": ""
  },
  {
   "property": "C51",
   "status": "proved",
   "theorems": [
    "Faster.C51_optimized",
    "Faster.C51_fallback",
    "Faster.C51_multiset"
   ],
   "note": ""
  },
  {
   "property": "C44",
   "status": "proved",
   "theorems": [
    "Faster.C44_int_fallback",
    "Faster.C44_int_optimized",
    "Faster.C44_float_fallback",
    "Faster.C44_float_optimized",
    "Faster.C44_agree"
   ],
   "note": ""
  },
  {
   "property": "C45",
   "status": "proved",
   "theorems": [
    "Faster.C45_order_fallback",
    "Faster.C45_order_optimized",
    "Faster.C45_fallback",
    "Faster.C45_optimized"
   ],
   "note": ""
  },
  {
   "property": "C46",
   "status": "partial",
   "theorems": [
    "Faster.C46_fallback_partial",
    "Faster.C46_u64",
    "Faster.C46_u64_iff",
    "Faster.C46_packs128_partial",
    "Faster.C46_packus128_partial",
    "Faster.C46_pack256",
    "Faster.C46_packs256_iff",
    "Faster.C46_false",
    "Faster.C46_packus256_iff"
   ],
   "note": "False for u64 lanes (some lanes are clamped to 2^31-1), for the unsigned SSE packs (which read lanes as signed) and for the AVX2 packs (which interleave the operands per 128-bit block). The exact behaviour of each is proved."
  },
  {
   "property": "C47",
   "status": "partial",
   "theorems": [
    "Faster.C47_fallback_partial",
    "Faster.C47_pack128_partial",
    "Faster.C47_pack256",
    "Faster.C47_false",
    "Faster.C47_pack256_iff",
    "Faster.C47_u32_iff"
   ],
   "note": "False for the AVX2 packs, where lanes of the two operands are interleaved per 128-bit block, and for u32 lanes on every target (some u64 lanes are clamped to 2^31-1, see C46). Proved for all other types of the fallback and for the SSE packs. C47_pack256_iff and C47_u32_iff say exactly which vectors come back."
  },
  {
   "property": "C41",
   "status": "partial",
   "theorems": [
    "Faster.C41_fallback_release",
    "Faster.C41_fallback_fits",
    "Faster.C41_fallback_debug",
    "Faster.C41_u8x16",
    "Faster.C41_u8x32",
    "Faster.i8Correct",
    "Faster.C41_i8x16",
    "Faster.C41_i8x32",
    "Faster.C41_i16x8",
    "Faster.C41_i16x16",
    "Faster.C41_i32x8",
    "Faster.C41_i16x16_partial",
    "Faster.C41_i32x8_partial",
    "Faster.upCorrect",
    "Faster.C41_u16x16",
    "Faster.C41_false"
   ],
   "note": "The sum modulo 2^bits is proved for every type in release builds. False in debug builds for i16x16 and i32x8 with AVX2: adding the two wrapped half sums can panic although the fallback does not overflow (exact condition in C41_i16x16 and C41_i32x8). Float sums are C63 and C109."
  },
  {
   "property": "C42",
   "status": "partial",
   "theorems": [
    "Faster.C42_fallback",
    "Faster.C42_u8x16",
    "Faster.C42_u8x32",
    "Faster.C42_i8x16",
    "Faster.C42_i8x32",
    "Faster.C42_16x16",
    "Faster.C42_false",
    "Faster.i8Correct",
    "Faster.upCorrect"
   ],
   "note": "False for i8x16 and i8x32 with SSE2/AVX2: the sum is wrapped to 8 bits (exact if and only if it fits in i8). Proved for every other type and for all fallbacks."
  },
  {
   "property": "C43",
   "status": "proved",
   "theorems": [
    "Faster.C43_optimized",
    "Faster.C43_fallback",
    "Faster.C43_count_zeroes",
    "Faster.C43_sum"
   ],
   "note": ""
  },
  {
   "property": "C54",
   "status": "partial",
   "theorems": [
    "Faster.C54_load",
    "Faster.C54_store",
    "Faster.C54_false",
    "Faster.C54_partial"
   ],
   "note": "False: with at least one vector of elements in the slice, an offset leaving less than a vector passes the check and the copy runs past the end (exact condition proved). The versions without an offset are safe."
  },
  {
   "property": "C59",
   "status": "proved",
   "theorems": [
    "Faster.C59_lanes",
    "Faster.C59_panics",
    "Faster.C59_assign",
    "Faster.C59_traits",
    "Faster.C59_traits_assign",
    "Faster.softOps_rows",
    "Faster.softOps_types"
   ],
   "note": ""
  },
  {
   "property": "C60",
   "status": "proved",
   "theorems": [
    "Faster.C60",
    "Faster.C60_symm"
   ],
   "note": ""
  },
  {
   "property": "C61",
   "status": "proved",
   "theorems": [
    "Faster.C61",
    "Faster.C61_rows"
   ],
   "note": ""
  },
  {
   "property": "C62",
   "status": "proved",
   "theorems": [
    "Faster.C62_x86",
    "Faster.C62_unknown",
    "Faster.C62_constants"
   ],
   "note": "Consistent means: avx512 implies avx2, and the fictitious feature avx1024 is off."
  },
  {
   "property": "C63",
   "status": "proved",
   "theorems": [
    "Faster.C63_fallback",
    "Faster.C63_f32x4",
    "Faster.C63_f64x2",
    "Faster.C63_f32x8",
    "Faster.C63_f64x4",
    "Faster.C63_exact",
    "Faster.C63_integers",
    "Faster.C63_order_matters"
   ],
   "note": ""
  },
  {
   "property": "C64",
   "status": "partial",
   "theorems": [
    "Faster.C64_partial",
    "Faster.C64_false",
    "Faster.C64_avx2"
   ],
   "note": "False for exactly 8 of 398 uses: u32x8/i32x8 min and max use AVX2 instructions in code compiled for AVX, and the rounding functions of f64x4 use AVX instructions in code compiled for SSE4.1."
  },
  {
   "property": "C65",
   "status": "proved",
   "theorems": [
    "Faster.C65_optimized",
    "Faster.C65_fallback",
    "Faster.C65_unique"
   ],
   "note": ""
  },
  {
   "property": "C66",
   "status": "partial",
   "theorems": [
    "Faster.C66_fallback",
    "Faster.C66_optimized_partial",
    "Faster.C66_false"
   ],
   "note": "False: the SSE and AVX instructions return NaN if the second operand is NaN and the first is a number (exact condition proved); the fallbacks are right."
  },
  {
   "property": "C67",
   "status": "proved",
   "theorems": [
    "Faster.C67_optimized",
    "Faster.C67_fallback",
    "Faster.C67_agree",
    "Faster.C67_integer"
   ],
   "note": "The agreement of targets is for lanes which are not NaN: that a NaN stays a NaN is proved, which NaN is left open."
  },
  {
   "property": "C68",
   "status": "partial",
   "theorems": [
    "Faster.C68_optimized",
    "Faster.C68_fallback",
    "Faster.C68_agree_partial",
    "Faster.C68_false"
   ],
   "note": "Both versions return a nearest integer, but the instruction rounds ties to even and the fallback away from zero: they differ exactly for 0.5, 2.5, 4.5, ... and their negatives."
  },
  {
   "property": "C69",
   "status": "proved",
   "theorems": [
    "Faster.C69_fallback",
    "Faster.C69_sqrt",
    "Faster.C69_recip"
   ],
   "note": "The approximate instructions RCPPS and RSQRTPS are not modelled."
  },
  {
   "property": "C70",
   "status": "proved",
   "theorems": [
    "Faster.C70_collect",
    "Faster.C70_for_each",
    "Faster.C70_compose",
    "Faster.C70_abs",
    "Faster.C70_documentation",
    "Faster.C70_round",
    "Faster.C70_swap_bytes",
    "Faster.C70_abs_all",
    "Faster.C70_round_all",
    "Faster.C70_sqrt",
    "Faster.C70_swap_bytes_all"
   ],
   "note": ""
  },
  {
   "property": "C71",
   "status": "proved",
   "theorems": [
    "Faster.C71_sum",
    "Faster.C71_versions",
    "Faster.i8Correct",
    "Faster.upCorrect"
   ],
   "note": ""
  },
  {
   "property": "C72",
   "status": "proved",
   "theorems": [
    "Faster.C72_map",
    "Faster.C72_sum",
    "Faster.C72_monoid",
    "Faster.C72_length_dependent"
   ],
   "note": ""
  },
  {
   "property": "C73",
   "status": "proved",
   "theorems": [
    "Faster.C73_zip",
    "Faster.C73_saturating_add",
    "Faster.C73_min_max",
    "Faster.C73_add",
    "Faster.C73_saturating_all",
    "Faster.C73_min_max_all",
    "Faster.C73_eq_mask"
   ],
   "note": ""
  },
  {
   "property": "C74",
   "status": "proved",
   "theorems": [
    "Faster.C74_determinant"
   ],
   "note": ""
  },
  {
   "property": "C75",
   "status": "partial",
   "theorems": [
    "Faster.C75_exact",
    "Faster.C75_false",
    "Faster.C75_safe_partial",
    "Faster.C75_next_overflow"
   ],
   "note": "False: exactly when, in a release build, end is called at a position strictly inside a slice of at most one vector."
  },
  {
   "property": "C76",
   "status": "partial",
   "theorems": [
    "Faster.C76_in_order_from_partial",
    "Faster.C76_in_order_partial",
    "Faster.C76_complete_from",
    "Faster.C76_complete",
    "Faster.C76_runs",
    "Faster.C76_at_most",
    "Faster.C76_repeats",
    "Faster.C76_false"
   ],
   "note": "False in release builds if an advance overflows the position (it then goes back). Proved in debug builds for all calls, in release builds if the amounts passed to advance do not overflow; completeness proved without restriction. Without any restriction, the elements come in runs which are in order, one more for every usize::MAX + 1 - len by which advance exceeds the end (C76_runs, C76_at_most), and there are sequences of calls with that many runs (C76_repeats)."
  },
  {
   "property": "C77",
   "status": "proved",
   "theorems": [
    "Faster.C77_map_calls",
    "Faster.C77_map_pure",
    "Faster.C77_slice"
   ],
   "note": ""
  },
  {
   "property": "C78",
   "status": "partial",
   "theorems": [
    "Faster.C78_exact",
    "Faster.C78_safe_partial",
    "Faster.C78_in_order_partial",
    "Faster.C78_next_release",
    "Faster.C78_false",
    "Faster.C78_exact_any",
    "Faster.C78_in_order_debug",
    "Faster.C78_order_release"
   ],
   "note": "False in release builds: advance by an amount whose index computation overflows, then next; or end at a position strictly inside a stride of at most one vector. C78_exact_any gives the exact condition for every index and all arguments. The order is kept in debug builds, and in release builds if nothing overflows."
  },
  {
   "property": "C79",
   "status": "proved",
   "theorems": [
    "Faster.C79_methods",
    "Faster.C79_consumers",
    "Faster.C79_zip_methods",
    "Faster.C79_slice_for_each",
    "Faster.C79_release",
    "Faster.C79_slice",
    "Faster.C79_iter",
    "Faster.C79_stride_array",
    "Faster.C79_stride",
    "Faster.C79_map",
    "Faster.C79_adapter",
    "Faster.C79_rest_nil",
    "Faster.C79_rest_cons",
    "Faster.C79_zip_new",
    "Faster.C79_zip",
    "Faster.C79_stride_zip",
    "Faster.C79_zip_map",
    "Faster.C79_reduce",
    "Faster.C79_do_each",
    "Faster.C79_fill",
    "Faster.C79_collect",
    "Faster.C79_fill_all",
    "Faster.C79_collect_all",
    "Faster.C79_unroll",
    "Faster.C79_calls",
    "Faster.C79_zip_calls",
    "Faster.C79_zip_reduce",
    "Faster.C79_zip_do_each",
    "Faster.C79_slice_mut",
    "Faster.C79_for_each"
   ],
   "note": "C79_release shows that release builds are different; which release builds of which calls fail is the subject of C08, C13, C27, C75, C78. States left by a panic which is caught are the subject of C138. That scalar_collect may return uninitialised elements (C09) is not counted as undefined behaviour here."
  },
  {
   "property": "C80",
   "status": "partial",
   "theorems": [
    "Faster.C80_end_partial",
    "Faster.C80_end_debug",
    "Faster.C80_end_unchecked_partial",
    "Faster.C80_end_unchecked_debug",
    "Faster.C80_zip_partial",
    "Faster.C80_end_exact",
    "Faster.C80_false",
    "Faster.C80_wrong_count",
    "Faster.C80_pass",
    "Faster.C80_reduce",
    "Faster.C80_collect"
   ],
   "note": "False in release builds if end() is called with more than one vector left: the fallback panics, the blend version panics, returns a wrong count, or reads out of bounds, by the number of elements left (C80_end_exact). Equal in debug builds, and with at most one vector left; so complete passes agree."
  },
  {
   "property": "C81",
   "status": "partial",
   "theorems": [
    "Faster.C81_exact",
    "Faster.C81_false",
    "Faster.C81_fresh_end",
    "Faster.C81_safe_partial",
    "Faster.C81_elements_lost"
   ],
   "note": "False, exactly where C75 is, and also if in a release build end() is called with more than 64 bytes and at most 128 - 64/SIZE elements left."
  },
  {
   "property": "C82",
   "status": "proved",
   "theorems": [
    "Faster.C82_zip_reduce_sum",
    "Faster.C82_zip_map_reduce_sum",
    "Faster.C82_dot_product",
    "Faster.C82_squared_distance",
    "Faster.C82_padding_counts"
   ],
   "note": ""
  },
  {
   "property": "C83",
   "status": "proved",
   "theorems": [
    "Faster.C83_zip_fill",
    "Faster.C83_squared_differences"
   ],
   "note": ""
  },
  {
   "property": "C84",
   "status": "proved",
   "theorems": [
    "Faster.C84_stride_with_slice",
    "Faster.C84_slice_with_stride",
    "Faster.C84_determinant3"
   ],
   "note": "Strides s with len + s * (WIDTH + 1) below the usize range; a larger stride would need more default vectors than fit in memory (stride_into asserts their number)."
  },
  {
   "property": "C85",
   "status": "partial",
   "theorems": [
    "Faster.C85_for_store",
    "Faster.C85_for_store_lanewise",
    "Faster.C85_unrolled_repaired",
    "Faster.C85_unrolled_partial",
    "Faster.C85_unrolled_incomplete",
    "Faster.C85_unrolled_exact",
    "Faster.C85_unrolled_short",
    "Faster.C85_unrolled_none",
    "Faster.C85_false"
   ],
   "note": "Proved for the plain loops. False for the unrolled loops of the benches: the store offset uses the number of the chunk, so chunks overlap (exact result in C85_unrolled_exact); and an incomplete last chunk panics. C85_unrolled_repaired is about a corrected offset."
  },
  {
   "property": "C86",
   "status": "partial",
   "theorems": [
    "Faster.C86_unique",
    "Faster.C86_chunks",
    "Faster.C86_incomplete",
    "Faster.C86_two",
    "Faster.C86_two_ssse3",
    "Faster.C86_two_avx2",
    "Faster.C86_two_avx2_iff",
    "Faster.C86_four",
    "Faster.C86_strides",
    "Faster.C86_two_same_partial",
    "Faster.C86_two_same_ssse3",
    "Faster.C86_four_same",
    "Faster.C86_false"
   ],
   "note": "Proved for the polyfill and the SSSE3 version of destride_two, and for destride_four. False for bytes with AVX2, where destride_two is wrong (C48): C86_two_avx2 gives the exact result and C86_two_avx2_iff the slices on which it happens to be right."
  },
  {
   "property": "C87",
   "status": "partial",
   "theorems": [
    "Faster.C87_rows_partial",
    "Faster.C87_two_partial",
    "Faster.C87_finalize_exact",
    "Faster.C87_false"
   ],
   "note": "Proved for next, end, advance, len, scalar_pos and vector_pos. False for scalar_len, vector_len and finalize, which use the number of vectors in place of the number of scalars (C87_finalize_exact says exactly what they do; C33, C34)."
  },
  {
   "property": "C88",
   "status": "partial",
   "theorems": [
    "Faster.C88_exact",
    "Faster.C88_safe_partial",
    "Faster.C88_two_partial",
    "Faster.C88_false"
   ],
   "note": "False: exactly when, in a release build, end is called at a position strictly inside slices of at most one vector."
  },
  {
   "property": "C89",
   "status": "partial",
   "theorems": [
    "Faster.C89_in_order_partial",
    "Faster.C89_complete_from",
    "Faster.C89_two_in_order_partial",
    "Faster.C89_two_complete",
    "Faster.C89_in_order_debug",
    "Faster.C89_two_in_order_debug",
    "Faster.C89_runs",
    "Faster.C89_two_at_most",
    "Faster.C89_false",
    "Faster.C89_overflow"
   ],
   "note": "False in release builds with finalize, which can move a zip back, and if an advance overflows. Proved in debug builds for all sequences of calls (C89_in_order_debug); in release builds without finalize as long as the amounts passed to advance do not overflow; completeness proved. Without restriction, the rows come in runs which are in order, one more for every finalize and every usize::MAX + 1 - len by which advance exceeds the end (C89_runs, C89_two_at_most)."
  },
  {
   "property": "C90",
   "status": "proved",
   "theorems": [
    "Faster.C90_zip_map_calls",
    "Faster.C90_two"
   ],
   "note": ""
  },
  {
   "property": "C91",
   "status": "proved",
   "theorems": [
    "Faster.C91_pipeline",
    "Faster.C91_zip"
   ],
   "note": "The two-into-one adaptors are not pipelines in this sense: they have undefined behaviour (C30); so do zips of different lengths or lane widths (C22, C23)."
  },
  {
   "property": "C92",
   "status": "proved",
   "theorems": [
    "Faster.C92_collect",
    "Faster.C92_fill",
    "Faster.C92_calls",
    "Faster.C92_same"
   ],
   "note": ""
  },
  {
   "property": "C93",
   "status": "proved",
   "theorems": [
    "Faster.C93_impure_map",
    "Faster.C93_flip",
    "Faster.C93_length_dependent",
    "Faster.C93_not_portable"
   ],
   "note": ""
  },
  {
   "property": "C94",
   "status": "proved",
   "theorems": [
    "Faster.C94_once",
    "Faster.C94_nodup",
    "Faster.C94_panics",
    "Faster.C94_file",
    "Faster.C94_outputs"
   ],
   "note": ""
  },
  {
   "property": "C95",
   "status": "proved",
   "theorems": [
    "Faster.C95_sizes",
    "Faster.C95_pairs",
    "Faster.C95_path",
    "Faster.C95_back",
    "Faster.C95_new",
    "Faster.C95_splat",
    "Faster.C95_unchecked",
    "Faster.C95_store_load"
   ],
   "note": ""
  },
  {
   "property": "C96",
   "status": "partial",
   "theorems": [
    "Faster.C96_exact",
    "Faster.C96_short_debug_partial",
    "Faster.C96_short_rest_partial",
    "Faster.C96_short_release",
    "Faster.C96_fill_iff",
    "Faster.C96_false"
   ],
   "note": "The equivalence of success and room is proved. False in release builds with more than a vector of results: every short buffer is overrun (C96_short_release). Debug builds, and less than a vector of results, panic. C96_exact: the outcome depends only on the build and on whether the first next of the pipeline returns a vector."
  },
  {
   "property": "C97",
   "status": "partial",
   "theorems": [
    "Faster.C97_exact",
    "Faster.C97_safe_partial",
    "Faster.C97_false"
   ],
   "note": "False: exactly when, in a release build, end is called with the inner iterator strictly inside a slice of at most one vector."
  },
  {
   "property": "C98",
   "status": "partial",
   "theorems": [
    "Faster.C98_pairs_partial",
    "Faster.C98_exact",
    "Faster.C98_order",
    "Faster.C98_order_debug",
    "Faster.C98_runs",
    "Faster.C98_none_moves",
    "Faster.C98_exhausted",
    "Faster.C98_end_once",
    "Faster.C98_false"
   ],
   "note": "Proved as long as every next finds a whole vector of pairs. False for a next with at least half a vector of pairs left but no whole one: it returns None and moves on (C98_none_moves). C98_exact gives the answers to every sequence of calls, end included, from every state whose positions do not overflow; C98_order: the vectors of pairs are disjoint and in order. In debug builds that holds for all calls and amounts (C98_order_debug); in release builds every position which wraps around starts one more run (C98_runs)."
  },
  {
   "property": "C99",
   "status": "partial",
   "theorems": [
    "Faster.C99_simd",
    "Faster.C99_simd_whole",
    "Faster.C99_scalar",
    "Faster.C99_never_right",
    "Faster.C99_lossy",
    "Faster.C99_soft",
    "Faster.C99_soft_panics",
    "Faster.C99_false"
   ],
   "note": "What both programs write is proved exactly for all data and buffers. The equality is false: the vectorised program writes no character right and loses the even bytes altogether (C99_never_right, C99_lossy). These are about the wrapping operators of hardware vectors; on targets without SIMD the vectorised program also panics in debug builds, exactly if some byte is at least 201 (C99_soft, C99_soft_panics)."
  },
  {
   "property": "C100",
   "status": "partial",
   "theorems": [
    "Faster.C100_map",
    "Faster.C100_zip",
    "Faster.C100_stride_two",
    "Faster.C100_zip_simd",
    "Faster.C100_zip_simd_partial",
    "Faster.C100_benchmark",
    "Faster.C100_false"
   ],
   "note": "The lane-wise statements and the exact result of zip_simd are proved. The cut-off is false in the lanes whose downcast has the limit 2^31 - 1 (C46); proved when all sums are below 2^31."
  },
  {
   "property": "C101",
   "status": "proved",
   "theorems": [
    "Faster.C101_abs",
    "Faster.C101_lots_of_84s",
    "Faster.C101_fill",
    "Faster.C101_strided"
   ],
   "note": "Hardware operators (wrapping). The float pipelines of the example are C107."
  },
  {
   "property": "C102",
   "status": "proved",
   "theorems": [
    "Faster.C102_last_lane",
    "Faster.C102_checked",
    "Faster.C102_program",
    "Faster.C102_cycled",
    "Faster.C102_test"
   ],
   "note": ""
  },
  {
   "property": "C103",
   "status": "proved",
   "theorems": [
    "Faster.C103_fallback",
    "Faster.C103_optimized"
   ],
   "note": ""
  },
  {
   "property": "C104",
   "status": "partial",
   "theorems": [
    "Faster.C104_downcast_partial",
    "Faster.C104_false",
    "Faster.C104_round_trip"
   ],
   "note": "Order, nearest values and the round trip are proved. Saturation is false: numbers of magnitude 2^128 - 2^103 and more become infinite (exact condition proved)."
  },
  {
   "property": "C105",
   "status": "partial",
   "theorems": [
    "Faster.C105_round",
    "Faster.C105_abs",
    "Faster.C105_sqrt",
    "Faster.C105_recip",
    "Faster.C105_min_max",
    "Faster.C105_round_partial",
    "Faster.C105_false"
   ],
   "note": "All proved except round with the instruction, which is equal exactly if no element is an even integer plus a half (C105_round_partial, counterexample C105_false), and recip with RCPPS, whose bits are not modelled. NaN payloads of sqrt and recip: one quiet NaN in the model."
  },
  {
   "property": "C106",
   "status": "partial",
   "theorems": [
    "Faster.C106_map",
    "Faster.C106_map_scalar",
    "Faster.C106_threes",
    "Faster.C106_map_fill",
    "Faster.C106_reduce",
    "Faster.C106_reduce_scalar",
    "Faster.C106_reduce_any",
    "Faster.C106_reduce_near",
    "Faster.C106_reduce_zero",
    "Faster.C106_reduce_false",
    "Faster.f32Of_lanewise",
    "Faster.rsqrt_fallback_lanewise",
    "Faster.rsqrt_fallback",
    "Faster.rsqrt_ceil"
   ],
   "note": "The maps are proved. reduce_simd is proved for whole numbers of vectors: exactly for elements of magnitude 1.002 or more, and for arbitrary nonzero elements up to the rounding errors of the additions, which are done in another order (C106_reduce_near). reduce_uneven_simd is false: its result is never finite, because the padding 0.0 has an infinite reciprocal root (C106_reduce_false)."
  },
  {
   "property": "C107",
   "status": "proved",
   "theorems": [
    "Faster.C107_reduced",
    "Faster.C107_example",
    "Faster.C107_lots_of_3s"
   ],
   "note": "The hypothesis that the next fourth power is not within one part in 2^20 is needed: the two roots round."
  },
  {
   "property": "C108",
   "status": "proved",
   "theorems": [
    "Faster.C108_latency",
    "Faster.C108_value",
    "Faster.C108_negative",
    "Faster.C108_benchmark",
    "Faster.latencyOf_lanewise"
   ],
   "note": ""
  },
  {
   "property": "C109",
   "status": "proved",
   "theorems": [
    "Faster.C109_sum",
    "Faster.C109_versions",
    "Faster.C109_vectors",
    "Faster.C109_reduce",
    "Faster.C109_scalar",
    "Faster.C109_simd_scalar",
    "Faster.C109_factor"
   ],
   "note": "f32 and f64 additions rounded to nearest, ties to even. In C109_reduce the function must give zero on the default if the length is not a multiple of the width. C109_factor gives the simpler bound 2 D u."
  },
  {
   "property": "C110",
   "status": "partial",
   "theorems": [
    "Faster.C110_determinant3",
    "Faster.C110_determinant2",
    "Faster.C110_zip_nop",
    "Faster.C110_nop",
    "Faster.C110_stride_zip_partial",
    "Faster.C110_stride_zip_length",
    "Faster.C110_stride_zip_one",
    "Faster.C110_stride_zip_false",
    "Faster.C110_stride_zip_naive_soft",
    "Faster.C110_stride_zip_soft_partial",
    "Faster.C110_stride_zip_soft_tail",
    "Faster.C110_zip_scalar",
    "Faster.C110_zip_partial",
    "Faster.C110_zip_false"
   ],
   "note": "The determinants, zip_nop and nop are proved. stride_zip agrees with stride_zip_naive for multiples of two vectors, false for other lengths (C29); with the operators of software vectors both panic in the same cases for these multiples (C110_stride_zip_soft_partial), not for other lengths (C110_stride_zip_soft_tail). zip_simd returns integers and zip_scalar returns f32: equal in value for sums up to 2^24 (C110_zip_partial), beyond that zip_scalar rounds (C110_zip_scalar, C110_zip_false)."
  },
  {
   "property": "C111",
   "status": "proved",
   "theorems": [
    "Faster.C111_vectors_int",
    "Faster.C111_zip_reduce",
    "Faster.C111_zip_map_reduce",
    "Faster.C111_dot_product"
   ],
   "note": "Sums whose function gives zero on the padding, or whole numbers of vectors."
  },
  {
   "property": "C112",
   "status": "proved",
   "theorems": [
    "Faster.C112_in_place",
    "Faster.C112_sums",
    "Faster.C112_reduce",
    "Faster.C112_reduce_release",
    "Faster.C112_reduce_copies",
    "Faster.C112_kernel_reduce",
    "Faster.C112_kernel_fill",
    "Faster.C112_kernel_float",
    "Faster.C112_kernel_error"
   ],
   "note": "Hardware operators (wrapping); C112_sums: every integer version of sum has the property used, in both build profiles (C71_versions: modulo 2^n in release builds)."
  },
  {
   "property": "C113",
   "status": "partial",
   "theorems": [
    "Faster.C113_roundtrip",
    "Faster.C113_memory",
    "Faster.C113_collect",
    "Faster.C113_bitcast_partial",
    "Faster.C113_octuples",
    "Faster.C113_false",
    "Faster.transmuteOn_little",
    "Faster.transmuteOn_big"
   ],
   "note": "The round trip and the byte orders are proved for both endiannesses. The bitcast maps are proved on little-endian targets, and for 8-bit parts on both; on big-endian targets parts of more than 8 bits come out byte-swapped (exact result in C113_collect, counterexample to the test in C113_false)."
  },
  {
   "property": "C114",
   "status": "proved",
   "theorems": [
    "Faster.C114_generator",
    "Faster.C114_sources",
    "Faster.C114_rows",
    "Faster.C114_model",
    "Faster.C114_blends"
   ],
   "note": "The literals are extracted by tools/gen_patterns.py. The header of the script says crate::std, the files crate::core: this text is outside the model."
  },
  {
   "property": "C115",
   "status": "partial",
   "theorems": [
    "Faster.C115_merge_fallback",
    "Faster.C115_merge_blend",
    "Faster.C115_flip",
    "Faster.C115_upcast",
    "Faster.C115_downcast_partial",
    "Faster.C115_downcast256",
    "Faster.C115_false",
    "Faster.C115_eq_mask",
    "Faster.C115_min_max",
    "Faster.C115_swap_bytes",
    "Faster.C115_abs",
    "Faster.C115_sqrt",
    "Faster.C115_sqrt_int",
    "Faster.C115_round_directed",
    "Faster.C115_round_partial"
   ],
   "note": "All examples are proved except saturating_downcast: the signed AVX2 packs give halves exactly if the clamped values are equal (C115_downcast256), so the example of the documentation fails there (C115_false); u64 and the unsigned packs are the subject of C46. round is proved for numbers which are not halfway between integers (see C68). recip and rsqrt (approximate) are the subject of C69."
  },
  {
   "property": "C116",
   "status": "proved",
   "theorems": [
    "Faster.C116_zip",
    "Faster.C116_tuplify",
    "Faster.C116_stride",
    "Faster.C116_stride_model",
    "Faster.C116_into",
    "Faster.C116_transmute"
   ],
   "note": "C116_zip is stated for iterators of one type, so that the tuple is a list; the expansion does not depend on the types of the iterators. The be_ methods are transmutes; C52 proves that transmutes between types of equal size can be undone."
  },
  {
   "property": "C117",
   "status": "proved",
   "theorems": [
    "Faster.C117_same_fill",
    "Faster.C117_same_do_each",
    "Faster.C117_fill_driver",
    "Faster.C117_resume_driver",
    "Faster.C117_do_each_driver",
    "Faster.C117_fill_panic",
    "Faster.C117_resume",
    "Faster.C117_do_each_panic",
    "Faster.C117_fill_panic_stride",
    "Faster.C117_fill_panic_zip",
    "Faster.C117_same_reduce",
    "Faster.C117_same_zip",
    "Faster.C117_reduce_driver",
    "Faster.C117_reduce_resume_driver",
    "Faster.C117_reduce_panic",
    "Faster.C117_stride_panic",
    "Faster.C117_resume_stride",
    "Faster.C117_reduce_panic_zip",
    "Faster.C117_do_each_panic_zip",
    "Faster.C117_resume_zip",
    "Faster.C117_reduce_resume_zip",
    "Faster.C117_fill_nested",
    "Faster.C117_fill_zip_first"
   ],
   "note": "The versions with places agree with the models of C07, C02 and C03 (C117_same_fill, C117_same_do_each, C117_same_reduce, C117_same_zip). What a panicking closure did to its captured variables before the panic is not modelled: its state is kept as it was before the call."
  },
  {
   "property": "C118",
   "status": "proved",
   "theorems": [
    "Faster.C118_calls",
    "Faster.C118_do_each",
    "Faster.C118_reduce",
    "Faster.C118_parallel",
    "Faster.C118_collect",
    "Faster.C118_for_each",
    "Faster.C118_for_each_any"
   ],
   "note": "An example shows that the calls differ if the cut is not at a multiple of the number of lanes. C118_for_each is stated for closures which do not panic, C118_for_each_any for all."
  },
  {
   "property": "C119",
   "status": "partial",
   "theorems": [
    "Faster.C119_iter",
    "Faster.C119_map",
    "Faster.C119_adapter",
    "Faster.C119_stride",
    "Faster.C119_zip",
    "Faster.C119_zip_map_pos",
    "Faster.C119_zip_map_len",
    "Faster.C119_stride_zip_pos",
    "Faster.C119_stride_zip_exact",
    "Faster.C119_stride_zip_partial",
    "Faster.C119_false",
    "Faster.C119_false_len"
   ],
   "note": "False for a stride_zip which is made at a position which is no multiple of the number of lanes (exact condition C119_stride_zip_exact), and for vector_len of zips mapped to vectors of another number of lanes (exact condition C119_zip_map_len)."
  },
  {
   "property": "C120",
   "status": "proved",
   "theorems": [
    "Faster.C120_casts",
    "Faster.C120_round_trip"
   ],
   "note": "Casts of floats to integers follow Rust since 1.45 (saturating); before, values out of range were undefined."
  },
  {
   "property": "C121",
   "status": "partial",
   "theorems": [
    "Faster.C121_float_release",
    "Faster.C121_float_fits",
    "Faster.C121_float_debug",
    "Faster.C121_float_partial",
    "Faster.C121_int_release",
    "Faster.C121_int_exact",
    "Faster.C121_int_debug",
    "Faster.C121_false"
   ],
   "note": "False: each float lane is rounded towards zero before adding, so four halves have the sum 0, and NaN counts as 0; u64 lanes of at least 2^63 count as negative. Proved: the exact result for every vector and build, that the result is less than the number of lanes away from the sum of finite floats of limited size, and equal to it for whole numbers; for 64-bit integers the sum modulo 2^64."
  },
  {
   "property": "C122",
   "status": "partial",
   "theorems": [
    "Faster.C122_adapter_trace_partial",
    "Faster.C122_exact",
    "Faster.C122_debug_safe",
    "Faster.C122_false",
    "Faster.adapter_next_exact",
    "Faster.adapter_end_exact"
   ],
   "note": "False: in release builds a single call of end on a fresh adapter around more scalars than one vector writes out of bounds. Proved: next and end in every state; exactly when a sequence of calls can write out of bounds (release build, more scalars than lanes), never in debug builds; in every sequence of calls which returns the scalars handed out and those left are the original scalars in order, where the vectors of end are read backwards and one lane further than reported."
  },
  {
   "property": "C123",
   "status": "partial",
   "theorems": [
    "Faster.C123_do_each_exact",
    "Faster.C123_collect_exact",
    "Faster.C123_collect_partial",
    "Faster.C123_debug",
    "Faster.C123_release_longer",
    "Faster.C123_zip_many",
    "Faster.C123_do_each_many",
    "Faster.C123_collect_many",
    "Faster.C123_outcome_many",
    "Faster.C123_false"
   ],
   "note": "False in release builds: if the first slice has a partial vector and the second one has another length, the last elements of the first slice are combined with the last elements of the second one (other indices), with its default, or the pass is undefined behaviour; debug builds panic. Proved: the exact result for every pair of lengths and every closure, and for any number of slices of any lengths and element types (…_many)."
  },
  {
   "property": "C124",
   "status": "proved",
   "theorems": [
    "Faster.C124_one",
    "Faster.C124_distinct",
    "Faster.C124_complete",
    "Faster.C124_tables",
    "Faster.C124_tables_unknown",
    "Faster.C124_arith_types",
    "Faster.C124_cast_types",
    "Faster.C124_shuffle_types",
    "Faster.C124_lane_types"
   ],
   "note": "The table of implementations is extracted from the Rust text by tools/gen_impls.py (modules which are not in the mod lists, cast.rs and swizzle.rs, are left out, as rustc does). C124_tables: the tables of the other properties have a row for every type with the method; C124_arith_types and the others: these rows have the lanes of that type."
  },
  {
   "property": "C125",
   "status": "partial",
   "theorems": [
    "Faster.C125_x86",
    "Faster.C125_partial",
    "Faster.C125_false"
   ],
   "note": "False: count_ones exists on x86 only; rsqrt of f64s and saturating_add of 32-bit and 64-bit lanes only on other targets. C125_partial: these are the only differences. C125_x86: none between feature sets of x86."
  },
  {
   "property": "C126",
   "status": "proved",
   "theorems": [
    "Faster.C126_round_up",
    "Faster.C126_round_down",
    "Faster.C126_round_tests",
    "Faster.C126_round_points",
    "Faster.C126_recip",
    "Faster.C126_recip_tests",
    "Faster.C126_recip_doc",
    "Faster.C126_rsqrt_doc",
    "Faster.C126_docs"
   ],
   "note": "RCPPS and RSQRTPS are any functions with the documented relative error of 1.5/4096 (IsRcp, IsRsqrt); the fallbacks are proved to have it. The limit is needed: from 2^21 on i+0.4 rounds to i+0.5 in f32 (example beside C126_round_tests)."
  },
  {
   "property": "C127",
   "status": "partial",
   "theorems": [
    "Faster.C127_hop",
    "Faster.C127_hadd",
    "Faster.C127_hsub",
    "Faster.C127_saturating",
    "Faster.C127_hop_optimized",
    "Faster.C127_hop_float",
    "Faster.C127_hop_float_versions",
    "Faster.C127_upcast",
    "Faster.C127_abs",
    "Faster.C127_abs_float",
    "Faster.C127_popcnt",
    "Faster.C127_popcnt_versions",
    "Faster.C127_sum_partial",
    "Faster.C127_sum_release",
    "Faster.C127_sum_debug",
    "Faster.C127_sum_i8",
    "Faster.C127_sum_once",
    "Faster.C127_sum_tests",
    "Faster.C127_sum_float"
   ],
   "note": "False for sum_upcast of i8x16 and i8x32 with SSE2/AVX2: in release builds the test passes exactly for constants from -8 to 7 (-4 to 3), see C127_sum_i8. All else is proved; the actual test passes because its loop makes one iteration (C127_sum_once, C127_sum_tests)."
  },
  {
   "property": "C128",
   "status": "partial",
   "theorems": [
    "Faster.C128_slice",
    "Faster.C128_map",
    "Faster.C128_zip",
    "Faster.C128_stride_zip",
    "Faster.C128_stride_exact",
    "Faster.C128_stride_missed",
    "Faster.C128_stride_partial",
    "Faster.C128_stride_loses",
    "Faster.C128_stride_false",
    "Faster.C128_zip_strides",
    "Faster.C128_adapter_exact",
    "Faster.C128_adapter_partial",
    "Faster.C128_adapter_false",
    "Faster.C128_scalar_load",
    "Faster.C128_vector_load",
    "Faster.C128_vector_iter",
    "Faster.C128_vector_iter_test"
   ],
   "note": "False for strided iterators, zips which start with one, and SIMDAdapter. A loop over strided iterator k misses the last complete vector exactly if the elements fill it and the slice ends before the iterator's next element; over an adapter it visits the first half of the vectors. The test vector_iter never looks at the last vector."
  },
  {
   "property": "C129",
   "status": "proved",
   "theorems": [
    "Faster.C129_merge",
    "Faster.C129_merge_float",
    "Faster.C129_swap_bytes",
    "Faster.C129_flip",
    "Faster.C129_eq",
    "Faster.C129_eq_float",
    "Faster.C129_transmute",
    "Faster.C129_transmute_float",
    "Faster.C129_product",
    "Faster.C129_product_ones",
    "Faster.C129_product_float",
    "Faster.C129_max_min",
    "Faster.C129_sqrt",
    "Faster.C129_sqrt_literals"
   ],
   "note": "product of floats: for integers whose power is exact. sqrt: for limits other than NaN, since max and min differ between versions on NaN (C66)."
  },
  {
   "property": "C130",
   "status": "partial",
   "theorems": [
    "Faster.C130_collect",
    "Faster.C130_fill",
    "Faster.C130_collect_over",
    "Faster.C130_fill_over",
    "Faster.C130_lanewise_iff",
    "Faster.C130_lanewise_size_iff",
    "Faster.C130_returns_iff",
    "Faster.C130_zip_collect",
    "Faster.C130_zip_collect_over",
    "Faster.C130_ub_iff",
    "Faster.C130_zip_outcome",
    "Faster.C130_false_narrow",
    "Faster.C130_false_widen"
   ],
   "note": "False: end computes the empty lanes of the last result from the sizes of the scalars, which is right only if both vectors have the same total size. Proved: the exact outcome of scalar_collect and scalar_fill for all sizes, lengths and closures; a lane-wise map to as many lanes is right exactly if there is no remainder or the scalars have the same size. scalar_fill into any buffer, also of zips: C08_fill_driver, C08_fill_zip."
  },
  {
   "property": "C131",
   "status": "proved",
   "theorems": [
    "Faster.C131_hop",
    "Faster.C131_hop_float",
    "Faster.C131_upcast",
    "Faster.C131_abs",
    "Faster.C131_abs_float",
    "Faster.C131_popcnt",
    "Faster.C131_sum_body",
    "Faster.C131_sum_float",
    "Faster.C131_merge",
    "Faster.C131_swap_bytes",
    "Faster.C131_flip",
    "Faster.C131_eq",
    "Faster.C131_sqrt",
    "Faster.C131_recip",
    "Faster.C131_blind_order",
    "Faster.C131_blind_halves",
    "Faster.C131_blind_lanes",
    "Faster.C131_blind_recip",
    "Faster.C131_blind_constant"
   ],
   "note": "The integer sum test is stated for one iteration of its loop; it makes one (C127). That the implementations of the crate are right on all vectors: C38-C46 and others."
  },
  {
   "property": "C132",
   "status": "proved",
   "theorems": [
    "Faster.C132_add",
    "Faster.C132_sub",
    "Faster.C132_mul",
    "Faster.C132_div",
    "Faster.C132_unique",
    "Faster.C132_invalid",
    "Faster.C132_quiet",
    "Faster.C132_quiet_casts"
   ],
   "note": "The operators are those of the hardware and of Rust, not code of the crate: this theorem validates the definitions on which the theorems about float programs rest."
  },
  {
   "property": "C133",
   "status": "partial",
   "theorems": [
    "Faster.C133_given",
    "Faster.C133_fixed",
    "Faster.C133_zip_fixed",
    "Faster.C133_end",
    "Faster.C133_zip_end",
    "Faster.C133_zip_end_stride",
    "Faster.C133_map",
    "Faster.C133_false"
   ],
   "note": "Proved for slice iterators, strided iterators and zips of any number of them. False for maps and stride_zip: their default() is the zero vector, whatever closure and default they have (C133_map, C133_false); a comment in the source asks for a better value."
  },
  {
   "property": "C134",
   "status": "partial",
   "theorems": [
    "Faster.C134_next",
    "Faster.C134_end",
    "Faster.C134_end_stops",
    "Faster.C134_step_ub",
    "Faster.C134_trace_partial",
    "Faster.C134_debug_safe",
    "Faster.C134_model",
    "Faster.C134_false"
   ],
   "note": "False: an iterator which reports one scalar and has more than one vector makes end write out of bounds in release builds (C134_false), used as the consumers use it. Proved for any state machine as wrapped iterator: next and end in every state, that both stop, exactly when a call writes out of bounds (C134_step_ub; never in debug builds), and that a sequence of calls which returns hands out the scalars it took, in order. C134_model: around a list this is the adapter of C30 and C122."
  },
  {
   "property": "C135",
   "status": "partial",
   "theorems": [
    "Faster.C135_fill",
    "Faster.C135_fill_ub",
    "Faster.C135_collect",
    "Faster.C135_fill_all",
    "Faster.C135_fill_endless",
    "Faster.C135_collect_endless",
    "Faster.C135_collect_partial",
    "Faster.C135_collect_all",
    "Faster.C135_collect_all_ub",
    "Faster.C135_panics",
    "Faster.C135_collect_panics",
    "Faster.C135_unroll",
    "Faster.C135_false"
   ],
   "note": "False: scalar_collect of an iterator whose len is smaller than its number of vectors writes past the allocation, one whose len is larger returns uninitialised memory (C135_false and the example beside it). Proved for any implementation of the traits: what scalar_fill, scalar_collect, scalar_fill_all, scalar_collect_all and unroll do, also where next or end panics, exactly when scalar_fill and scalar_collect_all write out of bounds, endless iterators, and conditions under which scalar_collect is sound."
  },
  {
   "property": "C136",
   "status": "partial",
   "theorems": [
    "Faster.C136_contract",
    "Faster.C136_calls",
    "Faster.C136_exact",
    "Faster.C136_like_slice_partial",
    "Faster.C136_do_each",
    "Faster.C136_reduce",
    "Faster.C136_collect",
    "Faster.C136_stride",
    "Faster.C136_zip_do_each",
    "Faster.C136_for_each",
    "Faster.C136_for_each_panic",
    "Faster.C136_consumers",
    "Faster.C136_views",
    "Faster.C136_false"
   ],
   "note": "False in release builds: next near the end of usize wraps around and calls load_unchecked outside its contract; a slice happens to panic there, another collection has undefined behaviour (C136_false). Proved: every sequence of calls agrees with the strict collection, for which an access outside the contract is undefined behaviour; exactly which calls break the contract (C136_exact); like a slice otherwise; all passes; simd_for_each with the contents after a panic of the closure; that every view and consumer preserves agreement."
  },
  {
   "property": "C137",
   "status": "proved",
   "theorems": [
    "Faster.C137_strided",
    "Faster.C137_do_each",
    "Faster.C137_reduce",
    "Faster.C137_collect",
    "Faster.C137_next",
    "Faster.C137_of_iter"
   ],
   "note": "C137_next: next of the nested iterator may leave its last full vector to end, where next of the single stride returns it."
  },
  {
   "property": "C138",
   "status": "proved",
   "theorems": [
    "Faster.C138_methods",
    "Faster.C138_consumers",
    "Faster.C138_after",
    "Faster.C138_zip_methods",
    "Faster.C138_zip_after",
    "Faster.C138_for_each",
    "Faster.C138_same_collect",
    "Faster.C138_same_collect_all",
    "Faster.C138_same_fill_all",
    "Faster.C138_same_adapter",
    "Faster.C138_same_views",
    "Faster.C138_adapter_end_panics"
   ],
   "note": "The variables captured by closures which panicked may have any values. As in C79, uninitialised elements returned by scalar_collect are not counted as undefined behaviour. Panics of the allocator and of wrapped scalar iterators are not modelled."
  },
  {
   "property": "C139",
   "status": "partial",
   "theorems": [
    "Faster.C139_driver",
    "Faster.C139_exact",
    "Faster.C139_collect_partial",
    "Faster.C139_panics_iff",
    "Faster.C139_false",
    "Faster.C139_fill",
    "Faster.C139_zip",
    "Faster.C139_stride_two",
    "Faster.C139_stride_zip",
    "Faster.C139_stride_zip_partial",
    "Faster.C139_for_each_ok",
    "Faster.C139_for_each_panic",
    "Faster.C139_reduce",
    "Faster.C139_reduce_total",
    "Faster.C139_example_fill",
    "Faster.C139_example_strided",
    "Faster.C139_example_abs"
   ],
   "note": "False: the default lanes of an incomplete last vector are computed too, and may panic although no element does. Exact for scalar_collect over slices, strides (C139_driver), zips and stride_zips (C139_stride_zip, whose last call computes other pairs), for scalar_fill and simd_for_each (C139_for_each_panic says which elements have been replaced before the panic), and lane by lane for simd_reduce."
  },
  {
   "property": "C140",
   "status": "partial",
   "theorems": [
    "Faster.C140_exact_any",
    "Faster.C140_two_exact_any",
    "Faster.C140_exact",
    "Faster.C140_safe_partial",
    "Faster.C140_in_order_partial",
    "Faster.C140_complete",
    "Faster.C140_two_safe_partial",
    "Faster.C140_two_in_order_partial",
    "Faster.C140_two_complete",
    "Faster.C140_in_order_debug",
    "Faster.C140_two_in_order_debug",
    "Faster.C140_false",
    "Faster.C140_finalize",
    "Faster.C140_overflow"
   ],
   "note": "False in release builds: end inside at most one vector of rows, and next after an advance which wraps around to an index from which a row lies outside. Exactly then: C140_exact_any for every sequence of calls with any amounts, C140_two_exact_any for stride_two, C140_exact in terms of rows if no position overflows (C140_overflow is an instance); finalize moves back (C140_finalize). Order and completeness proved for any number of iterators, and for the pairs of stride_two; in debug builds order and safety without restriction (C140_in_order_debug)."
  },
  {
   "property": "C141",
   "status": "partial",
   "theorems": [
    "Faster.C141_lane",
    "Faster.C141_documented_partial",
    "Faster.C141_equal",
    "Faster.C141_equal_iff",
    "Faster.C141_twos",
    "Faster.C141_doc4",
    "Faster.C141_doc8",
    "Faster.C141_lane_at",
    "Faster.C141_zip_lane_at",
    "Faster.C141_false"
   ],
   "note": "False: the remaining elements are the last lanes of the last call, the default comes before them. C141_lane gives the elements each lane combines, for every slice and width; C141_documented_partial: as documented for multiples of the width; C141_equal_iff: for equal elements only then. The documented example is right with 4 lanes (C141_doc4) and wrong with 8, where the halves are swapped: 24.0 in the first four lanes and 26.0 in the last four (C141_doc8, C141_false). C141_lane_at, C141_zip_lane_at: the same lanes for strided iterators and zips of any arity, from every position at which end does not fail (C13). Sums of f32 twos are exact up to 2^24 (C141_twos)."
  },
  {
   "property": "C142",
   "status": "partial",
   "theorems": [
    "Faster.C142_do_each",
    "Faster.C142_reduce",
    "Faster.C142_again",
    "Faster.C142_unmodified_iff",
    "Faster.C142_zip_again",
    "Faster.C142_again_at",
    "Faster.C142_unmodified_at",
    "Faster.C142_zip_again_at",
    "Faster.C142_false"
   ],
   "note": "False: simd_do_each takes &mut self and leaves the iterator at its end. C142_do_each and C142_reduce: from any position the closure is called on the remaining elements; C142_again, C142_zip_again: a second pass calls nothing; C142_unmodified_iff: the position is unmodified exactly if no elements remained. The theorems named _at: the same from every position, also behind the end, and for zips from every position of the first iterator; inside of a collection of at most one vector the call does not return (C02_at)."
  },
  {
   "property": "C143",
   "status": "partial",
   "theorems": [
    "Faster.C143_mask_iff",
    "Faster.C143_mask_aligned_iff",
    "Faster.C143_types",
    "Faster.C143_mask_read",
    "Faster.C143_mask_read_aligned",
    "Faster.C143_chunk_partial",
    "Faster.C143_false"
   ],
   "note": "False: transmute(&PART_MASK[..]) keeps the length 128 of the byte slice, so the reference extends beyond the table for every lane wider than a byte, at every address (C143_mask_iff, C143_types); it is also not aligned in general (C143_mask_aligned_iff). The load through it stays inside the table for offsets up to the width (C143_mask_read). The chunks of Unrolled::next are always valid when made (C143_chunk_partial); that they are overwritten later is C20."
  },
  {
   "property": "C144",
   "status": "partial",
   "theorems": [
    "Faster.C144_collect",
    "Faster.C144_collect_all",
    "Faster.C144_room_partial",
    "Faster.C144_slice",
    "Faster.C144_overflow_debug",
    "Faster.C144_overflow_release",
    "Faster.C144_panics",
    "Faster.C144_false"
   ],
   "note": "False on 32-bit targets. C144_collect, C144_collect_all: for any iterator the allocation panics exactly if len + 1 vectors exceed isize::MAX bytes; C144_room_partial, C144_slice: closures which keep the vector size never reach that if one more vector fits, else they panic (C144_panics: a slice of isize::MAX bytes). C144_overflow_release: if a closure returns larger vectors and the number of elements overflows usize, release builds write out of bounds (C144_false: 2^27 u64s mapped to u8x64 with 32-bit usize); debug builds panic."
  },
  {
   "property": "C145",
   "status": "partial",
   "theorems": [
    "Faster.C145_pipeline_partial",
    "Faster.C145_zip_partial",
    "Faster.C145_false"
   ],
   "note": "False for the last part. C145_pipeline_partial, C145_zip_partial: a set of states which contains the pipeline and is closed under every call, returning or panicking, and under changes of captured variables; in it every call returns or panics without undefined behaviour (end only after next has come to its end, buffers of scalar_fill with one vector more than len), and scalar_collect returns scalars followed by uninitialised cells. C145_false: such cells do occur, since the returned length is computed from the whole collection."
  },
  {
   "property": "C146",
   "status": "proved",
   "theorems": [
    "Faster.C146_iterator",
    "Faster.C146_consumers",
    "Faster.C146_unrolled",
    "Faster.C146_make_zip",
    "Faster.C146_zip",
    "Faster.C146_zip_consumers",
    "Faster.C146_array",
    "Faster.C146_slice_mut",
    "Faster.C146_cursor",
    "Faster.C146_for_each",
    "Faster.C146_zip_blend",
    "Faster.C146_packed",
    "Faster.C146_lanes",
    "Faster.C146_merge",
    "Faster.C146_destride",
    "Faster.C146_sum",
    "Faster.C146_popcnt"
   ],
   "note": "Compiled relates the two forms of one program: iterators over slices and over other iterators (also on targets with blends), strided iterators, adapters of arbitrary scalar iterators, maps with any closures which agree in the same sense, zips and strided zips of those and their maps, each in any state, reachable or not. Agree: anything if the debug build panics, otherwise the same kind of outcome with related results."
  },
  {
   "property": "C147",
   "status": "partial",
   "theorems": [
    "Faster.C147_aligned_partial",
    "Faster.C147_zip",
    "Faster.C147_reduce_exact",
    "Faster.C147_do_each_exact",
    "Faster.C147_outcome",
    "Faster.C147_many_outcome",
    "Faster.C147_many_ok_iff",
    "Faster.C147_many_ub",
    "Faster.C147_emits",
    "Faster.C147_collect_exact",
    "Faster.C147_ub_iff",
    "Faster.C147_wider",
    "Faster.C147_narrower",
    "Faster.C147_false"
   ],
   "note": "False: the position and the number of empty lanes of the first iterator are passed to the others, whatever their widths, so eight and four elements in vectors of four and two lanes are read out of bounds in release builds. Exactly: what the closures of simd_reduce and simd_do_each see for any number of slices; when a pass over any number of slices panics or is undefined behaviour (C147_many_outcome), and that it returns exactly if it does for the first with each of the others (C147_many_ok_iff). The part which holds: a first slice of full vectors, and a second one which reaches as far as they need."
  },
  {
   "property": "C148",
   "status": "partial",
   "theorems": [
    "Faster.C148_slice_partial",
    "Faster.C148_map_partial",
    "Faster.C148_zip_partial",
    "Faster.C148_count",
    "Faster.C148_collect",
    "Faster.C148_last",
    "Faster.C148_nth",
    "Faster.C148_count_len_iff",
    "Faster.C148_stride_count",
    "Faster.C148_adapter_count",
    "Faster.C148_size_hint_false",
    "Faster.C148_take_len",
    "Faster.C148_skip_len",
    "Faster.C148_zip_len",
    "Faster.C148_adapters"
   ],
   "note": "False: no iterator defines size_hint, so it is (0, None) in every state; len() of take(n) for n > 0, skip, peekable and zip panics. The methods which call next are right on fresh iterators over slices, maps and zips; exactly: count agrees with len on a slice as long as no complete vector has been consumed; strided iterators may miss one, SIMDAdapter counts half. The provided methods and adapters are modelled from the documentation of core::iter."
  },
  {
   "property": "C149",
   "status": "proved",
   "theorems": [
    "Faster.C149_reduce",
    "Faster.C149_do_each",
    "Faster.C149_zip_reduce",
    "Faster.C149_zip_do_each",
    "Faster.C149_slice_reduce"
   ],
   "note": "C149_reduce and the others hold for every implementation of the iterator traits, whatever its state, if the number of empty lanes which its end returns is at most that of a vector (SmallTail, ZSmallTail, only needed in debug builds); smallTail_iter, smallTail_stride, smallTail_map, smallTail_zip and smallTail_zipMap show this for the iterators of the crate."
  },
  {
   "property": "C150",
   "status": "partial",
   "theorems": [
    "Faster.C150_reduce_partial",
    "Faster.C150_do_each_partial",
    "Faster.C150_collect_partial",
    "Faster.C150_swap_reduce_partial",
    "Faster.C150_swap_do_each_partial",
    "Faster.C150_swap_collect_partial",
    "Faster.C150_followers",
    "Faster.C150_deeper",
    "Faster.C150_check",
    "Faster.C150_false"
   ],
   "note": "False for the collections of different lengths which zip accepts: of four and five elements one order panics in debug builds, and in release builds the order decides which elements meet in the last call (C150_false). Missing: nothing else; the check of zip is symmetric (C150_check), and for equal lengths every rearrangement of the columns is proved, for slices and strides, any arity. All vectors of a build have the same number of bytes, so hsize' of C150_collect_partial holds there."
  },
  {
   "property": "C151",
   "status": "partial",
   "theorems": [
    "Faster.C151_reduce",
    "Faster.C151_collect",
    "Faster.C151_reduce_partial",
    "Faster.C151_log_iff",
    "Faster.C151_whole",
    "Faster.C151_lanewise",
    "Faster.C151_driver_reduce",
    "Faster.C151_driver_collect",
    "Faster.C151_zip_reduce",
    "Faster.C151_zip_collect",
    "Faster.C151_false"
   ],
   "note": "False: in one pass the closures which follow see what the first closure made of the default lanes of the last vector, after collecting they see the default of the second iterator (C151_false: a sum over x + 1 counts the missing elements). C151_reduce and C151_collect: exactly this, for all closures; C151_log_iff: all reductions agree exactly if these lanes do, in particular for whole vectors (C151_whole); C151_lanewise: collecting a lane-wise second map always agrees. The theorems named driver and zip: the exact outcome after a first pass over any iterator and any zip."
  },
  {
   "property": "C152",
   "status": "partial",
   "theorems": [
    "Faster.C152_collect",
    "Faster.C152_two",
    "Faster.C152_fused_partial",
    "Faster.C152_iff",
    "Faster.C152_lanewise",
    "Faster.C152_whole",
    "Faster.C152_false"
   ],
   "note": "In place and collected results agree for any closure (C152_collect). Composition is false: the second pass pads the last vector with its default, one pass with what the first closure made of it (C152_false). C152_two: exactly what two passes do, any closures with state; C152_iff: they agree with one pass for every second closure exactly if those lanes agree; C152_lanewise: lane-wise second closures always agree."
  },
  {
   "property": "C153",
   "status": "partial",
   "theorems": [
    "Faster.C153_reduce",
    "Faster.C153_partial",
    "Faster.C153_iff",
    "Faster.C153_false"
   ],
   "note": "False if the stride does not divide the length: the last len % s elements are in no stride (C153_false). C153_reduce: exactly the elements of the complete groups are reduced, for every commutative monoid and every stride; C153_partial: the whole slice if the stride divides its length; C153_iff: for a cancellative operation exactly if the elements left out reduce to the identity."
  },
  {
   "property": "C154",
   "status": "partial",
   "theorems": [
    "Faster.C154_ones",
    "Faster.C154_sum",
    "Faster.C154_ones_partial",
    "Faster.C154_sum_partial",
    "Faster.C154_iff",
    "Faster.C154_versions",
    "Faster.C154_false"
   ],
   "note": "False if the default vector contains the value and the slice does not fill the last vector: the lanes in front are counted too (C154_false). C154_ones and C154_sum: exactly how many; the _partial theorems: the number of elements equal to the value for every other default; C154_iff: for splat defaults this is exact. C154_versions: all versions of eq_mask, count_ones and sum_upcast of the crate meet the hypotheses, also the sum_upcast of i8 which wraps in general (C42)."
  },
  {
   "property": "C155",
   "status": "partial",
   "theorems": [
    "Faster.C155_extreme",
    "Faster.C155_iff",
    "Faster.C155_partial",
    "Faster.C155_versions",
    "Faster.C155_false"
   ],
   "note": "False for default vectors beyond all elements, such as zero for the smallest of positive numbers (C155_false). C155_extreme: the result is the extreme of the elements, the starting values and the default lanes which fill the last vector; C155_iff: exactly when this is an extreme of the elements; C155_partial: always, if nothing is beyond the default and the starting values. C155_versions: all versions of min and max meet the hypothesis. Floats: C66, not covered here."
  },
  {
   "property": "C156",
   "status": "partial",
   "theorems": [
    "Faster.C156_equal",
    "Faster.C156_partial",
    "Faster.C156_false",
    "Faster.C154_versions"
   ],
   "note": "False for different default vectors: every slice which does not fill its last vector then seems to be different from itself (C156_false). C156_equal: exactly what the program computes, for all defaults; C156_partial: right whenever both iterators have one default. C154_versions: all versions of the operations meet the hypotheses."
  },
  {
   "property": "C157",
   "status": "partial",
   "theorems": [
    "Faster.C157_extreme",
    "Faster.C157_partial",
    "Faster.C157_versions",
    "Faster.C157_lane",
    "Faster.C157_forgets",
    "Faster.C157_false"
   ],
   "note": "False with SSE and AVX if there are NaNs: a lane forgets all elements before a NaN (C157_forgets), so the smallest of twelve floats is missed (C157_false). C157_extreme: the result for any defaults and starting values; C157_partial: right for the fallbacks, and for the instructions on slices without NaNs; C157_versions: which versions meet the hypotheses."
  },
  {
   "property": "C158",
   "status": "partial",
   "theorems": [
    "Faster.C158_unsigned",
    "Faster.C158_loop_unsigned",
    "Faster.C158_signed_partial",
    "Faster.C158_versions",
    "Faster.C158_false"
   ],
   "note": "True for unsigned elements: C158_unsigned gives the clamped sum for every default, C158_loop_unsigned the same for the loop. False for signed elements (C158_false: i8x16 returns -1 instead of 0); C158_signed_partial: the exact sum if the sum of the absolute values fits. C158_versions: all versions of saturating_add meet the hypotheses."
  },
  {
   "property": "C159",
   "status": "partial",
   "theorems": [
    "Faster.C159_ones",
    "Faster.C159_ones_iff",
    "Faster.C159_distance",
    "Faster.C159_distance_partial",
    "Faster.C159_false",
    "Faster.C154_versions"
   ],
   "note": "False if lanes of the default vector which fill the last vector are not zero (C159_false), or, for two slices, if they differ there. C159_ones and C159_distance: exactly what is counted for all defaults; C159_ones_iff: right exactly if these lanes are zero; C159_distance_partial: the distance is right with one default for both. C154_versions: all versions of count_ones."
  },
  {
   "property": "C160",
   "status": "partial",
   "theorems": [
    "Faster.C160_wrapped",
    "Faster.C160_release",
    "Faster.C160_partial",
    "Faster.C160_false",
    "Faster.C160_exact",
    "Faster.C160_debug_iff"
   ],
   "note": "True in release builds (C160_release). False in debug builds: overflowing lane products wrap silently where a loop panics, and product() may panic where a loop does not (C160_false). C160_wrapped: what is returned is always the product modulo 2^n, otherwise a debug build panics. C160_partial: exact in both builds if the product of the sizes of the nonzero elements fits. C160_exact: the outcome for every slice and build, from the products of the lanes; C160_debug_iff: exactly when a debug build panics."
  },
  {
   "property": "C161",
   "status": "proved",
   "theorems": [
    "Faster.C161_reduce",
    "Faster.C161_do_each",
    "Faster.C161_collect",
    "Faster.C161_again",
    "Faster.C161_slice_reduce",
    "Faster.C161_slice_collect",
    "Faster.C161_stride_reduce",
    "Faster.C161_defaults"
   ],
   "note": "C161_again adds copies of the collection, so the general theorems cover every arity; C161_slice_* and C161_stride_reduce spell out two columns. C161_defaults: the condition on the defaults cannot be dropped."
  },
  {
   "property": "C162",
   "status": "partial",
   "theorems": [
    "Faster.C162_wrapped",
    "Faster.C162_partial",
    "Faster.C162_loop",
    "Faster.C162_versions",
    "Faster.C162_false",
    "Faster.C162_exact",
    "Faster.C71_sum",
    "Faster.C71_versions"
   ],
   "note": "True in release builds (C71). False in debug builds: overflowing lanes wrap silently where a loop panics, and sum() panics where no sum of the loop overflows (C162_false). C162_wrapped: what is returned is always the sum modulo 2^n, otherwise a debug build panics. C162_partial: exact in all builds if the sum of the absolute values fits, as the loop is (C162_loop). C162_exact: the outcome for every slice, version and build, from the sums of the lanes. C162_versions: every version satisfies the hypotheses."
  },
  {
   "property": "C163",
   "status": "proved",
   "theorems": [
    "Faster.C163_native",
    "Faster.C163_release",
    "Faster.C163_debug"
   ],
   "note": "Native vectors do wrap silently in debug builds (C162_false). That a debug build may panic although no sum of a loop overflows is C162_false too."
  },
  {
   "property": "C164",
   "status": "proved",
   "theorems": [
    "Faster.C164_reduce",
    "Faster.C164_do_each",
    "Faster.C164_collect",
    "Faster.C164_fill",
    "Faster.C164_collect_all",
    "Faster.C164_fill_all",
    "Faster.C164_stride",
    "Faster.C164_stride_sum",
    "Faster.C164_short_buffer"
   ],
   "note": "Stated for every iterator which walks over a list (Driver); strideAt_driver and nested_driver say that strides do. C164_short_buffer: in release builds scalar_fill into a buffer without room panics for a stride where it is undefined behaviour for the slice. C164_stride_sum: C162 for strides, as an example of use."
  },
  {
   "property": "C165",
   "status": "partial",
   "theorems": [
    "Faster.C165_partial",
    "Faster.C165_sum",
    "Faster.C165_iff",
    "Faster.C165_i8",
    "Faster.C165_versions",
    "Faster.C165_false"
   ],
   "note": "False as stated (C165_false): the versions for i8x16 and i8x32 wrap the sum of each vector to eight bits (C165_i8 gives the exact result), and the lanes of the default which fill the last vector are added too (C165_sum, C165_iff). C165_partial: exact if those lanes have the sum zero, for the versions of C165_versions."
  },
  {
   "property": "C166",
   "status": "proved",
   "theorems": [
    "Faster.C166_debug",
    "Faster.C166_release",
    "Faster.C166_native",
    "Faster.C166_fits",
    "Faster.C166_iff",
    "Faster.C166_zero"
   ],
   "note": "C166_fits and C166_iff say when it returns: for unsigned slices without zeros exactly when a loop does. C166_zero: with zeros it can panic where a loop returns 0."
  },
  {
   "property": "C167",
   "status": "partial",
   "theorems": [
    "Faster.C167_partial",
    "Faster.C167_exact",
    "Faster.C167_odd",
    "Faster.C167_versions",
    "Faster.C167_false"
   ],
   "note": "True for slices of even length (C167_partial). False for odd lengths (C167_false): in the last vector the elements are paired with the wrong neighbours, the first of them is lost and a lane of the default takes its place, also in place (C167_exact, C167_odd). swizzle.rs is missing from the list of modules, so that flip is not compiled at this commit; C168 has the same effect for merge_interleaved."
  },
  {
   "property": "C168",
   "status": "partial",
   "theorems": [
    "Faster.C168_partial",
    "Faster.C168_interleaved",
    "Faster.C168_map",
    "Faster.C168_for_each",
    "Faster.C168_zip",
    "Faster.C168_versions",
    "Faster.C168_false"
   ],
   "note": "True for slices of even length (C168_partial). False for odd lengths (C168_false): after the full vectors even and odd change places (C168_interleaved). C168_map, C168_for_each and C168_zip give the result of every closure which treats lanes by their number: element j is treated like lane laneOf w len j."
  },
  {
   "property": "C169",
   "status": "proved",
   "theorems": [
    "Faster.C169_reduce",
    "Faster.C169_driver",
    "Faster.C169_slice",
    "Faster.C169_stride",
    "Faster.C169_calls",
    "Faster.C169_mixed",
    "Faster.C169_mixed_slice",
    "Faster.C169_zero",
    "Faster.C169_too_many"
   ],
   "note": "Loops may also be left after any chunk and continued with other amounts or with simd_reduce (C169_mixed). Each chunk is read before next is called again (C20 is about references which are kept). With amt = 0 the loop is empty (C169_zero); amt > 8 panics (C169_too_many)."
  },
  {
   "property": "C170",
   "status": "proved",
   "theorems": [
    "Faster.C170_reduce",
    "Faster.C170_driver",
    "Faster.C170_slice",
    "Faster.C170_stride",
    "Faster.C170_sum",
    "Faster.C170_saturating"
   ],
   "note": "The operation is a total function (release builds). What the accumulators begin with need only satisfy op e e = e, which is weaker than being neutral. Operations which are not associative, such as saturating sums of signed numbers, give other results (C170_saturating)."
  },
  {
   "property": "C171",
   "status": "proved",
   "theorems": [
    "Faster.C171_exact",
    "Faster.C171_upcast",
    "Faster.C171_defaults",
    "Faster.C171_versions"
   ],
   "note": "With different defaults the distances of the default lanes which fill the last vectors are added (C171_defaults). C155_versions and C165_versions give the versions of max, min and sum_upcast."
  },
  {
   "property": "C172",
   "status": "partial",
   "theorems": [
    "Faster.C172_partial",
    "Faster.C172_count",
    "Faster.C172_iff",
    "Faster.C172_false"
   ],
   "note": "True if no default lane is within the bound (C172_partial; exactly then for the lanes which are used, C172_iff). Otherwise these lanes are counted too (C172_count). For every default and every length which is no multiple of the width there is a bound with a wrong count (C172_false)."
  },
  {
   "property": "C173",
   "status": "proved",
   "theorems": [
    "Faster.C173_debug",
    "Faster.C173_release",
    "Faster.C173_tracks",
    "Faster.C173_panics"
   ],
   "note": "Whether a debug build panics depends on the number of accumulators (C173_panics). C173_tracks is about every operation which may panic and every iterator."
  },
  {
   "property": "C174",
   "status": "proved",
   "theorems": [
    "Faster.C174_accs",
    "Faster.C174_f32x8",
    "Faster.C174_fewer",
    "Faster.C174_one"
   ],
   "note": "The default must be mapped to zero if there are leftover elements. From 2m+1 full vectors on, no more roundings than with one accumulator (C174_fewer); the two results may differ, by at most the two bounds together (C174_one, example)."
  },
  {
   "property": "C175",
   "status": "proved",
   "theorems": [
    "Faster.C175_native",
    "Faster.C175_exact",
    "Faster.C175_debug",
    "Faster.C175_release",
    "Faster.C175_defaults",
    "Faster.C175_comm",
    "Faster.C175_counts_defaults"
   ],
   "note": "Defaults with a non-zero product are added for every missing lane (C175_counts_defaults); one default of zero is enough (C175_defaults)."
  },
  {
   "property": "C176",
   "status": "partial",
   "theorems": [
    "Faster.C176_unsigned",
    "Faster.C176_signed_partial",
    "Faster.C176_false"
   ],
   "note": "True for unsigned lanes (C176_unsigned: the clamped sum). False for signed lanes (C176_false); proved where the sum of the absolute values fits (C176_signed_partial)."
  },
  {
   "property": "C177",
   "status": "proved",
   "theorems": [
    "Faster.C177_product",
    "Faster.C177_extreme",
    "Faster.C177_slice"
   ],
   "note": "For defaults which are not neutral, several accumulators give what one gives too (C177_extreme), which need not be the smallest or largest element (C155_false)."
  },
  {
   "property": "C178",
   "status": "proved",
   "theorems": [
    "Faster.C178_one",
    "Faster.C178_accs",
    "Faster.C178_squares",
    "Faster.C178_exact",
    "Faster.C178_dot",
    "Faster.C178_soft"
   ],
   "note": "The operators are those of native vectors, which wrap; with software vectors and one accumulator, sums of squares are exact or panic in debug builds (C178_soft). The operation must map the default to zero, or the missing lanes of the last vector are counted (example)."
  }
 ]
}