/-
Instantiations of the arithmetic macros and the instructions used under each
feature gate, extracted from the Rust sources by `tools/gen_tables.py`. Do not
edit by hand.
-/
namespace Faster

/-- Kind of a lane type: unsigned integer, signed integer or float. -/
inductive Kind | u | i | f
  deriving DecidableEq, Repr

/-- Feature gates; `never` stands for names that are never enabled ("avx512-notyet",
"__undefined", …). -/
inductive Gate | sse | sse2 | sse3 | ssse3 | sse41 | avx | avx2 | never
  deriving DecidableEq, Repr

/-- The x86 intrinsics named in src/arch/x86 (without the leading underscore). -/
inductive Instr
  | mm256_abs_epi16
  | mm256_abs_epi32
  | mm256_abs_epi8
  | mm256_adds_epi16
  | mm256_adds_epi8
  | mm256_adds_epu16
  | mm256_adds_epu8
  | mm256_and_pd
  | mm256_and_ps
  | mm256_blendv_epi8
  | mm256_castsi256_si128
  | mm256_ceil_pd
  | mm256_ceil_ps
  | mm256_cmp_pd
  | mm256_cmp_ps
  | mm256_cmpeq_epi16
  | mm256_cmpeq_epi32
  | mm256_cmpeq_epi64
  | mm256_cmpeq_epi8
  | mm256_cvtepi16_epi32
  | mm256_cvtepi32_epi64
  | mm256_cvtepi32_pd
  | mm256_cvtepi8_epi16
  | mm256_cvtepu16_epi32
  | mm256_cvtepu32_epi64
  | mm256_cvtepu8_epi16
  | mm256_cvtps_pd
  | mm256_floor_pd
  | mm256_floor_ps
  | mm256_hadd_epi16
  | mm256_hadd_epi32
  | mm256_hadd_pd
  | mm256_hadd_ps
  | mm256_hadds_epi16
  | mm256_hsub_epi16
  | mm256_hsub_epi32
  | mm256_hsub_pd
  | mm256_hsub_ps
  | mm256_hsubs_epi16
  | mm256_max_epi16
  | mm256_max_epi32
  | mm256_max_epi8
  | mm256_max_epu16
  | mm256_max_epu32
  | mm256_max_epu8
  | mm256_max_pd
  | mm256_max_ps
  | mm256_min_epi16
  | mm256_min_epi32
  | mm256_min_epi8
  | mm256_min_epu16
  | mm256_min_epu32
  | mm256_min_epu8
  | mm256_min_pd
  | mm256_min_ps
  | mm256_packs_epi16
  | mm256_packs_epi32
  | mm256_packus_epi16
  | mm256_packus_epi32
  | mm256_permute4x64_epi64
  | mm256_rcp_ps
  | mm256_round_pd
  | mm256_round_ps
  | mm256_rsqrt_ps
  | mm256_sad_epu8
  | mm256_shuffle_epi8
  | mm256_sqrt_pd
  | mm256_sqrt_ps
  | mm256_subs_epi16
  | mm256_subs_epi8
  | mm256_subs_epu16
  | mm256_subs_epu8
  | mm256_unpackhi_epi32
  | mm256_unpackhi_epi64
  | mm256_unpacklo_epi32
  | mm256_unpacklo_epi64
  | mm512_mask_mov_epi8
  | mm512_permutexvar_epi8
  | mm_abs_epi16
  | mm_abs_epi32
  | mm_abs_epi8
  | mm_adds_epi16
  | mm_adds_epi8
  | mm_adds_epu16
  | mm_adds_epu8
  | mm_and_pd
  | mm_and_ps
  | mm_blendv_epi8
  | mm_ceil_pd
  | mm_ceil_ps
  | mm_cmpeq_epi16
  | mm_cmpeq_epi32
  | mm_cmpeq_epi64
  | mm_cmpeq_epi8
  | mm_cmpeq_pd
  | mm_cmpeq_ps
  | mm_cvtepi16_epi32
  | mm_cvtepi32_epi64
  | mm_cvtepi32_pd
  | mm_cvtepi8_epi16
  | mm_cvtepu16_epi32
  | mm_cvtepu32_epi64
  | mm_cvtepu8_epi16
  | mm_cvtps_pd
  | mm_floor_pd
  | mm_floor_ps
  | mm_hadd_epi16
  | mm_hadd_epi32
  | mm_hadd_pd
  | mm_hadd_ps
  | mm_hadds_epi16
  | mm_hsub_epi16
  | mm_hsub_epi32
  | mm_hsub_pd
  | mm_hsub_ps
  | mm_hsubs_epi16
  | mm_max_epi16
  | mm_max_epi32
  | mm_max_epi8
  | mm_max_epu16
  | mm_max_epu32
  | mm_max_epu8
  | mm_max_pd
  | mm_max_ps
  | mm_min_epi16
  | mm_min_epi32
  | mm_min_epi8
  | mm_min_epu16
  | mm_min_epu32
  | mm_min_epu8
  | mm_min_pd
  | mm_min_ps
  | mm_packs_epi16
  | mm_packs_epi32
  | mm_packus_epi16
  | mm_packus_epi32
  | mm_rcp_ps
  | mm_round_pd
  | mm_round_ps
  | mm_rsqrt_ps
  | mm_sad_epu8
  | mm_shuffle_epi32
  | mm_shuffle_epi8
  | mm_shuffle_ps
  | mm_sqrt_pd
  | mm_sqrt_ps
  | mm_subs_epi16
  | mm_subs_epi8
  | mm_subs_epu16
  | mm_subs_epu8
  | mm_unpackhi_epi32
  | mm_unpackhi_epi64
  | mm_unpacklo_epi32
  | mm_unpacklo_epi64
  | undefined
  deriving DecidableEq, Repr

/-- Scalar operations named in the macros: methods of the fallbacks and the
operations given to `hop!` (`Add::add`, `T::saturating_add`, …). -/
inductive Fn | add | sub | saturating_add | saturating_sub | min | max | eq
  deriving DecidableEq, Repr

/-- One method of a `rust_fallback_impl_binary!`/`rust_fallback_eq!` instance:
vector type, source line, lane kind, bytes per lane, lanes, scalar method of the
fallback, feature gate and instruction of the optimized version, lane list. -/
structure BinRow where
  vec : String
  line : Nat
  kind : Kind
  size : Nat
  width : Nat
  fn : Fn
  gate : Gate
  mm : Instr
  idx : List Nat

/-- One `hop!` instance: vector type, source line, lane kind, bytes per lane,
lanes, scalar operation, lane list. -/
structure HopRow where
  vec : String
  line : Nat
  kind : Kind
  size : Nat
  width : Nat
  op : Fn
  idx : List Nat

/-- One use of an instruction in code compiled only with feature `gate`. -/
structure GateRow where
  file : String
  line : Nat
  gate : Gate
  mm : Instr

/-- Instances in src/arch/x86/intrin/saturating_add.rs. -/
def satAddRows : List BinRow := [
  { vec := "u8x16", line := 16, kind := .u, size := 1, width := 16, fn := .saturating_add,
    gate := .sse2, mm := .mm_adds_epu8, idx := [0, 1, 2, 3, 4, 5, 6, 7, 8, 9, 10, 11, 12, 13, 14, 15] },
  { vec := "i8x16", line := 22, kind := .i, size := 1, width := 16, fn := .saturating_add,
    gate := .sse2, mm := .mm_adds_epi8, idx := [0, 1, 2, 3, 4, 5, 6, 7, 8, 9, 10, 11, 12, 13, 14, 15] },
  { vec := "u16x8", line := 28, kind := .u, size := 2, width := 8, fn := .saturating_add,
    gate := .sse2, mm := .mm_adds_epu16, idx := [0, 1, 2, 3, 4, 5, 6, 7] },
  { vec := "i16x8", line := 34, kind := .i, size := 2, width := 8, fn := .saturating_add,
    gate := .sse2, mm := .mm_adds_epi16, idx := [0, 1, 2, 3, 4, 5, 6, 7] },
  { vec := "u8x32", line := 40, kind := .u, size := 1, width := 32, fn := .saturating_add,
    gate := .avx2, mm := .mm256_adds_epu8, idx := [0, 1, 2, 3, 4, 5, 6, 7, 8, 9, 10, 11, 12, 13, 14, 15, 16, 17, 18, 19, 20, 21, 22, 23, 24, 25, 26, 27, 28, 29, 30, 31] },
  { vec := "i8x32", line := 48, kind := .i, size := 1, width := 32, fn := .saturating_add,
    gate := .avx2, mm := .mm256_adds_epi8, idx := [0, 1, 2, 3, 4, 5, 6, 7, 8, 9, 10, 11, 12, 13, 14, 15, 16, 17, 18, 19, 20, 21, 22, 23, 24, 25, 26, 27, 28, 29, 30, 31] },
  { vec := "u16x16", line := 55, kind := .u, size := 2, width := 16, fn := .saturating_add,
    gate := .avx2, mm := .mm256_adds_epu16, idx := [0, 1, 2, 3, 4, 5, 6, 7, 8, 9, 10, 11, 12, 13, 14, 15] },
  { vec := "i16x16", line := 61, kind := .i, size := 2, width := 16, fn := .saturating_add,
    gate := .avx2, mm := .mm256_adds_epi16, idx := [0, 1, 2, 3, 4, 5, 6, 7, 8, 9, 10, 11, 12, 13, 14, 15] }
]

/-- Instances in src/arch/unknown/intrin/saturating_add.rs. -/
def satAddRowsUnknown : List BinRow := [
  { vec := "u8x16", line := 14, kind := .u, size := 1, width := 16, fn := .saturating_add,
    gate := .never, mm := .undefined, idx := [0, 1, 2, 3, 4, 5, 6, 7, 8, 9, 10, 11, 12, 13, 14, 15] },
  { vec := "i8x16", line := 20, kind := .i, size := 1, width := 16, fn := .saturating_add,
    gate := .never, mm := .undefined, idx := [0, 1, 2, 3, 4, 5, 6, 7, 8, 9, 10, 11, 12, 13, 14, 15] },
  { vec := "u16x8", line := 26, kind := .u, size := 2, width := 8, fn := .saturating_add,
    gate := .never, mm := .undefined, idx := [0, 1, 2, 3, 4, 5, 6, 7] },
  { vec := "i16x8", line := 32, kind := .i, size := 2, width := 8, fn := .saturating_add,
    gate := .never, mm := .undefined, idx := [0, 1, 2, 3, 4, 5, 6, 7] },
  { vec := "u32x4", line := 38, kind := .u, size := 4, width := 4, fn := .saturating_add,
    gate := .never, mm := .undefined, idx := [0, 1, 2, 3] },
  { vec := "i32x4", line := 44, kind := .i, size := 4, width := 4, fn := .saturating_add,
    gate := .never, mm := .undefined, idx := [0, 1, 2, 3] },
  { vec := "u64x2", line := 50, kind := .u, size := 8, width := 2, fn := .saturating_add,
    gate := .never, mm := .undefined, idx := [0, 1] },
  { vec := "i64x2", line := 56, kind := .i, size := 8, width := 2, fn := .saturating_add,
    gate := .never, mm := .undefined, idx := [0, 1] }
]

/-- Instances in src/arch/x86/intrin/saturating_sub.rs. -/
def satSubRows : List BinRow := [
  { vec := "u8x16", line := 16, kind := .u, size := 1, width := 16, fn := .saturating_sub,
    gate := .sse2, mm := .mm_subs_epu8, idx := [0, 1, 2, 3, 4, 5, 6, 7, 8, 9, 10, 11, 12, 13, 14, 15] },
  { vec := "i8x16", line := 22, kind := .i, size := 1, width := 16, fn := .saturating_sub,
    gate := .sse2, mm := .mm_subs_epi8, idx := [0, 1, 2, 3, 4, 5, 6, 7, 8, 9, 10, 11, 12, 13, 14, 15] },
  { vec := "u16x8", line := 28, kind := .u, size := 2, width := 8, fn := .saturating_sub,
    gate := .sse2, mm := .mm_subs_epu16, idx := [0, 1, 2, 3, 4, 5, 6, 7] },
  { vec := "i16x8", line := 34, kind := .i, size := 2, width := 8, fn := .saturating_sub,
    gate := .sse2, mm := .mm_subs_epi16, idx := [0, 1, 2, 3, 4, 5, 6, 7] },
  { vec := "u8x32", line := 40, kind := .u, size := 1, width := 32, fn := .saturating_sub,
    gate := .avx2, mm := .mm256_subs_epu8, idx := [0, 1, 2, 3, 4, 5, 6, 7, 8, 9, 10, 11, 12, 13, 14, 15, 16, 17, 18, 19, 20, 21, 22, 23, 24, 25, 26, 27, 28, 29, 30, 31] },
  { vec := "i8x32", line := 47, kind := .i, size := 1, width := 32, fn := .saturating_sub,
    gate := .avx2, mm := .mm256_subs_epi8, idx := [0, 1, 2, 3, 4, 5, 6, 7, 8, 9, 10, 11, 12, 13, 14, 15, 16, 17, 18, 19, 20, 21, 22, 23, 24, 25, 26, 27, 28, 29, 30, 31] },
  { vec := "u16x16", line := 54, kind := .u, size := 2, width := 16, fn := .saturating_sub,
    gate := .avx2, mm := .mm256_subs_epu16, idx := [0, 1, 2, 3, 4, 5, 6, 7, 8, 9, 10, 11, 12, 13, 14, 15] },
  { vec := "i16x16", line := 60, kind := .i, size := 2, width := 16, fn := .saturating_sub,
    gate := .avx2, mm := .mm256_subs_epi16, idx := [0, 1, 2, 3, 4, 5, 6, 7, 8, 9, 10, 11, 12, 13, 14, 15] }
]

/-- Instances in src/arch/unknown/intrin/saturating_sub.rs. -/
def satSubRowsUnknown : List BinRow := [
  { vec := "u8x16", line := 14, kind := .u, size := 1, width := 16, fn := .saturating_sub,
    gate := .never, mm := .undefined, idx := [0, 1, 2, 3, 4, 5, 6, 7, 8, 9, 10, 11, 12, 13, 14, 15] },
  { vec := "i8x16", line := 20, kind := .i, size := 1, width := 16, fn := .saturating_sub,
    gate := .never, mm := .undefined, idx := [0, 1, 2, 3, 4, 5, 6, 7, 8, 9, 10, 11, 12, 13, 14, 15] },
  { vec := "u16x8", line := 26, kind := .u, size := 2, width := 8, fn := .saturating_sub,
    gate := .never, mm := .undefined, idx := [0, 1, 2, 3, 4, 5, 6, 7] },
  { vec := "i16x8", line := 32, kind := .i, size := 2, width := 8, fn := .saturating_sub,
    gate := .never, mm := .undefined, idx := [0, 1, 2, 3, 4, 5, 6, 7] }
]

/-- Instances in src/arch/x86/intrin/cmp.rs. -/
def cmpRows : List BinRow := [
  { vec := "u8x16", line := 16, kind := .u, size := 1, width := 16, fn := .min,
    gate := .sse2, mm := .mm_min_epu8, idx := [0, 1, 2, 3, 4, 5, 6, 7, 8, 9, 10, 11, 12, 13, 14, 15] },
  { vec := "u8x16", line := 17, kind := .u, size := 1, width := 16, fn := .max,
    gate := .sse2, mm := .mm_max_epu8, idx := [0, 1, 2, 3, 4, 5, 6, 7, 8, 9, 10, 11, 12, 13, 14, 15] },
  { vec := "i8x16", line := 23, kind := .i, size := 1, width := 16, fn := .min,
    gate := .sse41, mm := .mm_min_epi8, idx := [0, 1, 2, 3, 4, 5, 6, 7, 8, 9, 10, 11, 12, 13, 14, 15] },
  { vec := "i8x16", line := 24, kind := .i, size := 1, width := 16, fn := .max,
    gate := .sse41, mm := .mm_max_epi8, idx := [0, 1, 2, 3, 4, 5, 6, 7, 8, 9, 10, 11, 12, 13, 14, 15] },
  { vec := "u16x8", line := 30, kind := .u, size := 2, width := 8, fn := .min,
    gate := .sse41, mm := .mm_min_epu16, idx := [0, 1, 2, 3, 4, 5, 6, 7] },
  { vec := "u16x8", line := 31, kind := .u, size := 2, width := 8, fn := .max,
    gate := .sse41, mm := .mm_max_epu16, idx := [0, 1, 2, 3, 4, 5, 6, 7] },
  { vec := "i16x8", line := 37, kind := .i, size := 2, width := 8, fn := .min,
    gate := .sse41, mm := .mm_min_epi16, idx := [0, 1, 2, 3, 4, 5, 6, 7] },
  { vec := "i16x8", line := 38, kind := .i, size := 2, width := 8, fn := .max,
    gate := .sse41, mm := .mm_max_epi16, idx := [0, 1, 2, 3, 4, 5, 6, 7] },
  { vec := "u32x4", line := 44, kind := .u, size := 4, width := 4, fn := .min,
    gate := .sse41, mm := .mm_min_epu32, idx := [0, 1, 2, 3] },
  { vec := "u32x4", line := 45, kind := .u, size := 4, width := 4, fn := .max,
    gate := .sse41, mm := .mm_max_epu32, idx := [0, 1, 2, 3] },
  { vec := "i32x4", line := 51, kind := .i, size := 4, width := 4, fn := .min,
    gate := .sse41, mm := .mm_min_epi32, idx := [0, 1, 2, 3] },
  { vec := "i32x4", line := 52, kind := .i, size := 4, width := 4, fn := .max,
    gate := .sse41, mm := .mm_max_epi32, idx := [0, 1, 2, 3] },
  { vec := "f32x4", line := 58, kind := .f, size := 4, width := 4, fn := .min,
    gate := .sse, mm := .mm_min_ps, idx := [0, 1, 2, 3] },
  { vec := "f32x4", line := 59, kind := .f, size := 4, width := 4, fn := .max,
    gate := .sse, mm := .mm_max_ps, idx := [0, 1, 2, 3] },
  { vec := "f64x2", line := 65, kind := .f, size := 8, width := 2, fn := .min,
    gate := .sse2, mm := .mm_min_pd, idx := [0, 1] },
  { vec := "f64x2", line := 66, kind := .f, size := 8, width := 2, fn := .max,
    gate := .sse2, mm := .mm_max_pd, idx := [0, 1] },
  { vec := "u8x32", line := 72, kind := .u, size := 1, width := 32, fn := .min,
    gate := .avx2, mm := .mm256_min_epu8, idx := [0, 1, 2, 3, 4, 5, 6, 7, 8, 9, 10, 11, 12, 13, 14, 15, 16, 17, 18, 19, 20, 21, 22, 23, 24, 25, 26, 27, 28, 29, 30, 31] },
  { vec := "u8x32", line := 74, kind := .u, size := 1, width := 32, fn := .max,
    gate := .avx2, mm := .mm256_max_epu8, idx := [0, 1, 2, 3, 4, 5, 6, 7, 8, 9, 10, 11, 12, 13, 14, 15, 16, 17, 18, 19, 20, 21, 22, 23, 24, 25, 26, 27, 28, 29, 30, 31] },
  { vec := "i8x32", line := 81, kind := .i, size := 1, width := 32, fn := .min,
    gate := .avx2, mm := .mm256_min_epi8, idx := [0, 1, 2, 3, 4, 5, 6, 7, 8, 9, 10, 11, 12, 13, 14, 15, 16, 17, 18, 19, 20, 21, 22, 23, 24, 25, 26, 27, 28, 29, 30, 31] },
  { vec := "i8x32", line := 83, kind := .i, size := 1, width := 32, fn := .max,
    gate := .avx2, mm := .mm256_max_epi8, idx := [0, 1, 2, 3, 4, 5, 6, 7, 8, 9, 10, 11, 12, 13, 14, 15, 16, 17, 18, 19, 20, 21, 22, 23, 24, 25, 26, 27, 28, 29, 30, 31] },
  { vec := "u16x16", line := 90, kind := .u, size := 2, width := 16, fn := .min,
    gate := .avx2, mm := .mm256_min_epu16, idx := [0, 1, 2, 3, 4, 5, 6, 7, 8, 9, 10, 11, 12, 13, 14, 15] },
  { vec := "u16x16", line := 91, kind := .u, size := 2, width := 16, fn := .max,
    gate := .avx2, mm := .mm256_max_epu16, idx := [0, 1, 2, 3, 4, 5, 6, 7, 8, 9, 10, 11, 12, 13, 14, 15] },
  { vec := "i16x16", line := 97, kind := .i, size := 2, width := 16, fn := .min,
    gate := .avx2, mm := .mm256_min_epi16, idx := [0, 1, 2, 3, 4, 5, 6, 7, 8, 9, 10, 11, 12, 13, 14, 15] },
  { vec := "i16x16", line := 98, kind := .i, size := 2, width := 16, fn := .max,
    gate := .avx2, mm := .mm256_max_epi16, idx := [0, 1, 2, 3, 4, 5, 6, 7, 8, 9, 10, 11, 12, 13, 14, 15] },
  { vec := "u32x8", line := 104, kind := .u, size := 4, width := 8, fn := .min,
    gate := .avx, mm := .mm256_min_epu32, idx := [0, 1, 2, 3, 4, 5, 6, 7] },
  { vec := "u32x8", line := 105, kind := .u, size := 4, width := 8, fn := .max,
    gate := .avx, mm := .mm256_max_epu32, idx := [0, 1, 2, 3, 4, 5, 6, 7] },
  { vec := "i32x8", line := 111, kind := .i, size := 4, width := 8, fn := .min,
    gate := .avx, mm := .mm256_min_epi32, idx := [0, 1, 2, 3, 4, 5, 6, 7] },
  { vec := "i32x8", line := 112, kind := .i, size := 4, width := 8, fn := .max,
    gate := .avx, mm := .mm256_max_epi32, idx := [0, 1, 2, 3, 4, 5, 6, 7] },
  { vec := "f32x8", line := 118, kind := .f, size := 4, width := 8, fn := .min,
    gate := .avx, mm := .mm256_min_ps, idx := [0, 1, 2, 3, 4, 5, 6, 7] },
  { vec := "f32x8", line := 119, kind := .f, size := 4, width := 8, fn := .max,
    gate := .avx, mm := .mm256_max_ps, idx := [0, 1, 2, 3, 4, 5, 6, 7] },
  { vec := "f64x4", line := 125, kind := .f, size := 8, width := 4, fn := .min,
    gate := .avx, mm := .mm256_min_pd, idx := [0, 1, 2, 3] },
  { vec := "f64x4", line := 126, kind := .f, size := 8, width := 4, fn := .max,
    gate := .avx, mm := .mm256_max_pd, idx := [0, 1, 2, 3] }
]

/-- Instances in src/arch/unknown/intrin/cmp.rs. -/
def cmpRowsUnknown : List BinRow := [
  { vec := "u8x16", line := 14, kind := .u, size := 1, width := 16, fn := .min,
    gate := .never, mm := .undefined, idx := [0, 1, 2, 3, 4, 5, 6, 7, 8, 9, 10, 11, 12, 13, 14, 15] },
  { vec := "u8x16", line := 15, kind := .u, size := 1, width := 16, fn := .max,
    gate := .never, mm := .undefined, idx := [0, 1, 2, 3, 4, 5, 6, 7, 8, 9, 10, 11, 12, 13, 14, 15] },
  { vec := "i8x16", line := 21, kind := .i, size := 1, width := 16, fn := .min,
    gate := .never, mm := .undefined, idx := [0, 1, 2, 3, 4, 5, 6, 7, 8, 9, 10, 11, 12, 13, 14, 15] },
  { vec := "i8x16", line := 22, kind := .i, size := 1, width := 16, fn := .max,
    gate := .never, mm := .undefined, idx := [0, 1, 2, 3, 4, 5, 6, 7, 8, 9, 10, 11, 12, 13, 14, 15] },
  { vec := "u16x8", line := 28, kind := .u, size := 2, width := 8, fn := .min,
    gate := .never, mm := .undefined, idx := [0, 1, 2, 3, 4, 5, 6, 7] },
  { vec := "u16x8", line := 29, kind := .u, size := 2, width := 8, fn := .max,
    gate := .never, mm := .undefined, idx := [0, 1, 2, 3, 4, 5, 6, 7] },
  { vec := "i16x8", line := 35, kind := .i, size := 2, width := 8, fn := .min,
    gate := .never, mm := .undefined, idx := [0, 1, 2, 3, 4, 5, 6, 7] },
  { vec := "i16x8", line := 36, kind := .i, size := 2, width := 8, fn := .max,
    gate := .never, mm := .undefined, idx := [0, 1, 2, 3, 4, 5, 6, 7] },
  { vec := "u32x4", line := 42, kind := .u, size := 4, width := 4, fn := .min,
    gate := .never, mm := .undefined, idx := [0, 1, 2, 3] },
  { vec := "u32x4", line := 43, kind := .u, size := 4, width := 4, fn := .max,
    gate := .never, mm := .undefined, idx := [0, 1, 2, 3] },
  { vec := "i32x4", line := 49, kind := .i, size := 4, width := 4, fn := .min,
    gate := .never, mm := .undefined, idx := [0, 1, 2, 3] },
  { vec := "i32x4", line := 50, kind := .i, size := 4, width := 4, fn := .max,
    gate := .never, mm := .undefined, idx := [0, 1, 2, 3] },
  { vec := "f32x4", line := 56, kind := .f, size := 4, width := 4, fn := .min,
    gate := .never, mm := .undefined, idx := [0, 1, 2, 3] },
  { vec := "f32x4", line := 57, kind := .f, size := 4, width := 4, fn := .max,
    gate := .never, mm := .undefined, idx := [0, 1, 2, 3] },
  { vec := "f64x2", line := 63, kind := .f, size := 8, width := 2, fn := .min,
    gate := .never, mm := .undefined, idx := [0, 1] },
  { vec := "f64x2", line := 64, kind := .f, size := 8, width := 2, fn := .max,
    gate := .never, mm := .undefined, idx := [0, 1] },
  { vec := "u8x32", line := 70, kind := .u, size := 1, width := 32, fn := .min,
    gate := .never, mm := .undefined, idx := [0, 1, 2, 3, 4, 5, 6, 7, 8, 9, 10, 11, 12, 13, 14, 15, 16, 17, 18, 19, 20, 21, 22, 23, 24, 25, 26, 27, 28, 29, 30, 31] },
  { vec := "u8x32", line := 72, kind := .u, size := 1, width := 32, fn := .max,
    gate := .never, mm := .undefined, idx := [0, 1, 2, 3, 4, 5, 6, 7, 8, 9, 10, 11, 12, 13, 14, 15, 16, 17, 18, 19, 20, 21, 22, 23, 24, 25, 26, 27, 28, 29, 30, 31] },
  { vec := "i8x32", line := 79, kind := .i, size := 1, width := 32, fn := .min,
    gate := .never, mm := .undefined, idx := [0, 1, 2, 3, 4, 5, 6, 7, 8, 9, 10, 11, 12, 13, 14, 15, 16, 17, 18, 19, 20, 21, 22, 23, 24, 25, 26, 27, 28, 29, 30, 31] },
  { vec := "i8x32", line := 81, kind := .i, size := 1, width := 32, fn := .max,
    gate := .never, mm := .undefined, idx := [0, 1, 2, 3, 4, 5, 6, 7, 8, 9, 10, 11, 12, 13, 14, 15, 16, 17, 18, 19, 20, 21, 22, 23, 24, 25, 26, 27, 28, 29, 30, 31] },
  { vec := "u16x16", line := 88, kind := .u, size := 2, width := 16, fn := .min,
    gate := .never, mm := .undefined, idx := [0, 1, 2, 3, 4, 5, 6, 7, 8, 9, 10, 11, 12, 13, 14, 15] },
  { vec := "u16x16", line := 89, kind := .u, size := 2, width := 16, fn := .max,
    gate := .never, mm := .undefined, idx := [0, 1, 2, 3, 4, 5, 6, 7, 8, 9, 10, 11, 12, 13, 14, 15] },
  { vec := "i16x16", line := 95, kind := .i, size := 2, width := 16, fn := .min,
    gate := .never, mm := .undefined, idx := [0, 1, 2, 3, 4, 5, 6, 7, 8, 9, 10, 11, 12, 13, 14, 15] },
  { vec := "i16x16", line := 96, kind := .i, size := 2, width := 16, fn := .max,
    gate := .never, mm := .undefined, idx := [0, 1, 2, 3, 4, 5, 6, 7, 8, 9, 10, 11, 12, 13, 14, 15] },
  { vec := "u32x8", line := 102, kind := .u, size := 4, width := 8, fn := .min,
    gate := .never, mm := .undefined, idx := [0, 1, 2, 3, 4, 5, 6, 7] },
  { vec := "u32x8", line := 103, kind := .u, size := 4, width := 8, fn := .max,
    gate := .never, mm := .undefined, idx := [0, 1, 2, 3, 4, 5, 6, 7] },
  { vec := "i32x8", line := 109, kind := .i, size := 4, width := 8, fn := .min,
    gate := .never, mm := .undefined, idx := [0, 1, 2, 3, 4, 5, 6, 7] },
  { vec := "i32x8", line := 110, kind := .i, size := 4, width := 8, fn := .max,
    gate := .never, mm := .undefined, idx := [0, 1, 2, 3, 4, 5, 6, 7] },
  { vec := "f32x8", line := 116, kind := .f, size := 4, width := 8, fn := .min,
    gate := .never, mm := .undefined, idx := [0, 1, 2, 3, 4, 5, 6, 7] },
  { vec := "f32x8", line := 117, kind := .f, size := 4, width := 8, fn := .max,
    gate := .never, mm := .undefined, idx := [0, 1, 2, 3, 4, 5, 6, 7] },
  { vec := "f64x4", line := 123, kind := .f, size := 8, width := 4, fn := .min,
    gate := .never, mm := .undefined, idx := [0, 1, 2, 3] },
  { vec := "f64x4", line := 124, kind := .f, size := 8, width := 4, fn := .max,
    gate := .never, mm := .undefined, idx := [0, 1, 2, 3] }
]

/-- Instances in src/arch/x86/intrin/eq.rs. -/
def eqRows : List BinRow := [
  { vec := "u8x16", line := 17, kind := .u, size := 1, width := 16, fn := .eq,
    gate := .sse2, mm := .mm_cmpeq_epi8, idx := [0, 1, 2, 3, 4, 5, 6, 7, 8, 9, 10, 11, 12, 13, 14, 15] },
  { vec := "i8x16", line := 23, kind := .i, size := 1, width := 16, fn := .eq,
    gate := .sse41, mm := .mm_cmpeq_epi8, idx := [0, 1, 2, 3, 4, 5, 6, 7, 8, 9, 10, 11, 12, 13, 14, 15] },
  { vec := "u16x8", line := 29, kind := .u, size := 2, width := 8, fn := .eq,
    gate := .sse41, mm := .mm_cmpeq_epi16, idx := [0, 1, 2, 3, 4, 5, 6, 7] },
  { vec := "i16x8", line := 35, kind := .i, size := 2, width := 8, fn := .eq,
    gate := .sse41, mm := .mm_cmpeq_epi16, idx := [0, 1, 2, 3, 4, 5, 6, 7] },
  { vec := "u32x4", line := 41, kind := .u, size := 4, width := 4, fn := .eq,
    gate := .sse41, mm := .mm_cmpeq_epi32, idx := [0, 1, 2, 3] },
  { vec := "i32x4", line := 47, kind := .i, size := 4, width := 4, fn := .eq,
    gate := .sse41, mm := .mm_cmpeq_epi32, idx := [0, 1, 2, 3] },
  { vec := "f32x4", line := 53, kind := .f, size := 4, width := 4, fn := .eq,
    gate := .sse, mm := .mm_cmpeq_ps, idx := [0, 1, 2, 3] },
  { vec := "f64x2", line := 59, kind := .f, size := 8, width := 2, fn := .eq,
    gate := .sse2, mm := .mm_cmpeq_pd, idx := [0, 1] },
  { vec := "u64x2", line := 65, kind := .u, size := 8, width := 2, fn := .eq,
    gate := .sse41, mm := .mm_cmpeq_epi64, idx := [0, 1] },
  { vec := "i64x2", line := 71, kind := .i, size := 8, width := 2, fn := .eq,
    gate := .sse41, mm := .mm_cmpeq_epi64, idx := [0, 1] },
  { vec := "u8x32", line := 77, kind := .u, size := 1, width := 32, fn := .eq,
    gate := .avx2, mm := .mm256_cmpeq_epi8, idx := [0, 1, 2, 3, 4, 5, 6, 7, 8, 9, 10, 11, 12, 13, 14, 15, 16, 17, 18, 19, 20, 21, 22, 23, 24, 25, 26, 27, 28, 29, 30, 31] },
  { vec := "i8x32", line := 84, kind := .i, size := 1, width := 32, fn := .eq,
    gate := .avx2, mm := .mm256_cmpeq_epi8, idx := [0, 1, 2, 3, 4, 5, 6, 7, 8, 9, 10, 11, 12, 13, 14, 15, 16, 17, 18, 19, 20, 21, 22, 23, 24, 25, 26, 27, 28, 29, 30, 31] },
  { vec := "u16x16", line := 91, kind := .u, size := 2, width := 16, fn := .eq,
    gate := .avx2, mm := .mm256_cmpeq_epi16, idx := [0, 1, 2, 3, 4, 5, 6, 7, 8, 9, 10, 11, 12, 13, 14, 15] },
  { vec := "i16x16", line := 97, kind := .i, size := 2, width := 16, fn := .eq,
    gate := .avx2, mm := .mm256_cmpeq_epi16, idx := [0, 1, 2, 3, 4, 5, 6, 7, 8, 9, 10, 11, 12, 13, 14, 15] },
  { vec := "u32x8", line := 103, kind := .u, size := 4, width := 8, fn := .eq,
    gate := .avx2, mm := .mm256_cmpeq_epi32, idx := [0, 1, 2, 3, 4, 5, 6, 7] },
  { vec := "i32x8", line := 109, kind := .i, size := 4, width := 8, fn := .eq,
    gate := .avx2, mm := .mm256_cmpeq_epi32, idx := [0, 1, 2, 3, 4, 5, 6, 7] },
  { vec := "f32x8", line := 115, kind := .f, size := 4, width := 8, fn := .eq,
    gate := .avx, mm := .mm256_cmp_ps, idx := [0, 1, 2, 3, 4, 5, 6, 7] },
  { vec := "f64x4", line := 121, kind := .f, size := 8, width := 4, fn := .eq,
    gate := .avx, mm := .mm256_cmp_pd, idx := [0, 1, 2, 3] },
  { vec := "u64x4", line := 127, kind := .u, size := 8, width := 4, fn := .eq,
    gate := .avx2, mm := .mm256_cmpeq_epi64, idx := [0, 1, 2, 3] },
  { vec := "i64x4", line := 133, kind := .i, size := 8, width := 4, fn := .eq,
    gate := .avx2, mm := .mm256_cmpeq_epi64, idx := [0, 1, 2, 3] }
]

/-- Instances in src/arch/unknown/intrin/eq.rs. -/
def eqRowsUnknown : List BinRow := [
  { vec := "u8x16", line := 14, kind := .u, size := 1, width := 16, fn := .eq,
    gate := .never, mm := .undefined, idx := [0, 1, 2, 3, 4, 5, 6, 7, 8, 9, 10, 11, 12, 13, 14, 15] },
  { vec := "i8x16", line := 20, kind := .i, size := 1, width := 16, fn := .eq,
    gate := .never, mm := .undefined, idx := [0, 1, 2, 3, 4, 5, 6, 7, 8, 9, 10, 11, 12, 13, 14, 15] },
  { vec := "u16x8", line := 26, kind := .u, size := 2, width := 8, fn := .eq,
    gate := .never, mm := .undefined, idx := [0, 1, 2, 3, 4, 5, 6, 7] },
  { vec := "i16x8", line := 32, kind := .i, size := 2, width := 8, fn := .eq,
    gate := .never, mm := .undefined, idx := [0, 1, 2, 3, 4, 5, 6, 7] },
  { vec := "u32x4", line := 38, kind := .u, size := 4, width := 4, fn := .eq,
    gate := .never, mm := .undefined, idx := [0, 1, 2, 3] },
  { vec := "i32x4", line := 44, kind := .i, size := 4, width := 4, fn := .eq,
    gate := .never, mm := .undefined, idx := [0, 1, 2, 3] },
  { vec := "f32x4", line := 50, kind := .f, size := 4, width := 4, fn := .eq,
    gate := .never, mm := .undefined, idx := [0, 1, 2, 3] },
  { vec := "f64x2", line := 56, kind := .f, size := 8, width := 2, fn := .eq,
    gate := .never, mm := .undefined, idx := [0, 1] },
  { vec := "u64x2", line := 62, kind := .u, size := 8, width := 2, fn := .eq,
    gate := .never, mm := .undefined, idx := [0, 1] },
  { vec := "i64x2", line := 68, kind := .i, size := 8, width := 2, fn := .eq,
    gate := .never, mm := .undefined, idx := [0, 1] }
]

/-- `hop!` instances in src/arch/x86/intrin/hadd.rs. -/
def haddRows : List HopRow := [
  { vec := "u64x2", line := 95, kind := .u, size := 8, width := 2, op := .add,
    idx := [0, 1] },
  { vec := "u64x4", line := 96, kind := .u, size := 8, width := 4, op := .add,
    idx := [0, 1, 2, 3] },
  { vec := "u64x8", line := 97, kind := .u, size := 8, width := 8, op := .add,
    idx := [0, 1, 2, 3, 4, 5, 6, 7] },
  { vec := "u32x4", line := 98, kind := .u, size := 4, width := 4, op := .add,
    idx := [0, 1, 2, 3] },
  { vec := "u32x8", line := 99, kind := .u, size := 4, width := 8, op := .add,
    idx := [0, 1, 2, 3, 4, 5, 6, 7] },
  { vec := "u32x16", line := 100, kind := .u, size := 4, width := 16, op := .add,
    idx := [0, 1, 2, 3, 4, 5, 6, 7, 8, 9, 10, 11, 12, 13, 14, 15] },
  { vec := "u16x8", line := 101, kind := .u, size := 2, width := 8, op := .add,
    idx := [0, 1, 2, 3, 4, 5, 6, 7] },
  { vec := "u16x16", line := 102, kind := .u, size := 2, width := 16, op := .add,
    idx := [0, 1, 2, 3, 4, 5, 6, 7, 8, 9, 10, 11, 12, 13, 14, 15] },
  { vec := "u16x32", line := 103, kind := .u, size := 2, width := 32, op := .add,
    idx := [0, 1, 2, 3, 4, 5, 6, 7, 8, 9, 10, 11, 12, 13, 14, 15, 16, 17, 18, 19, 20, 21, 22, 23, 24, 25, 26, 27, 28, 29, 30, 31] },
  { vec := "u8x16", line := 104, kind := .u, size := 1, width := 16, op := .add,
    idx := [0, 1, 2, 3, 4, 5, 6, 7, 8, 9, 10, 11, 12, 13, 14, 15] },
  { vec := "u8x32", line := 105, kind := .u, size := 1, width := 32, op := .add,
    idx := [0, 1, 2, 3, 4, 5, 6, 7, 8, 9, 10, 11, 12, 13, 14, 15, 16, 17, 18, 19, 20, 21, 22, 23, 24, 25, 26, 27, 28, 29, 30, 31] },
  { vec := "u8x64", line := 106, kind := .u, size := 1, width := 64, op := .add,
    idx := [0, 1, 2, 3, 4, 5, 6, 7, 8, 9, 10, 11, 12, 13, 14, 15, 16, 17, 18, 19, 20, 21, 22, 23, 24, 25, 26, 27, 28, 29, 30, 31, 32, 33, 34, 35, 36, 37, 38, 39, 40, 41, 42, 43, 44, 45, 46, 47, 48, 49, 50, 51, 52, 53, 54, 55, 56, 57, 58, 59, 60, 61, 62, 63] },
  { vec := "i64x2", line := 107, kind := .i, size := 8, width := 2, op := .add,
    idx := [0, 1] },
  { vec := "i64x4", line := 108, kind := .i, size := 8, width := 4, op := .add,
    idx := [0, 1, 2, 3] },
  { vec := "i64x8", line := 109, kind := .i, size := 8, width := 8, op := .add,
    idx := [0, 1, 2, 3, 4, 5, 6, 7] },
  { vec := "i32x4", line := 111, kind := .i, size := 4, width := 4, op := .add,
    idx := [0, 1, 2, 3] },
  { vec := "i32x8", line := 113, kind := .i, size := 4, width := 8, op := .add,
    idx := [0, 1, 2, 3, 4, 5, 6, 7] },
  { vec := "i32x16", line := 114, kind := .i, size := 4, width := 16, op := .add,
    idx := [0, 1, 2, 3, 4, 5, 6, 7, 8, 9, 10, 11, 12, 13, 14, 15] },
  { vec := "i16x8", line := 116, kind := .i, size := 2, width := 8, op := .add,
    idx := [0, 1, 2, 3, 4, 5, 6, 7] },
  { vec := "i16x16", line := 118, kind := .i, size := 2, width := 16, op := .add,
    idx := [0, 1, 2, 3, 4, 5, 6, 7, 8, 9, 10, 11, 12, 13, 14, 15] },
  { vec := "i16x32", line := 119, kind := .i, size := 2, width := 32, op := .add,
    idx := [0, 1, 2, 3, 4, 5, 6, 7, 8, 9, 10, 11, 12, 13, 14, 15, 16, 17, 18, 19, 20, 21, 22, 23, 24, 25, 26, 27, 28, 29, 30, 31] },
  { vec := "i8x16", line := 120, kind := .i, size := 1, width := 16, op := .add,
    idx := [0, 1, 2, 3, 4, 5, 6, 7, 8, 9, 10, 11, 12, 13, 14, 15] },
  { vec := "i8x32", line := 121, kind := .i, size := 1, width := 32, op := .add,
    idx := [0, 1, 2, 3, 4, 5, 6, 7, 8, 9, 10, 11, 12, 13, 14, 15, 16, 17, 18, 19, 20, 21, 22, 23, 24, 25, 26, 27, 28, 29, 30, 31] },
  { vec := "i8x64", line := 122, kind := .i, size := 1, width := 64, op := .add,
    idx := [0, 1, 2, 3, 4, 5, 6, 7, 8, 9, 10, 11, 12, 13, 14, 15, 16, 17, 18, 19, 20, 21, 22, 23, 24, 25, 26, 27, 28, 29, 30, 31, 32, 33, 34, 35, 36, 37, 38, 39, 40, 41, 42, 43, 44, 45, 46, 47, 48, 49, 50, 51, 52, 53, 54, 55, 56, 57, 58, 59, 60, 61, 62, 63] },
  { vec := "f64x2", line := 124, kind := .f, size := 8, width := 2, op := .add,
    idx := [0, 1] },
  { vec := "f64x4", line := 126, kind := .f, size := 8, width := 4, op := .add,
    idx := [0, 1, 2, 3] },
  { vec := "f64x8", line := 127, kind := .f, size := 8, width := 8, op := .add,
    idx := [0, 1, 2, 3, 4, 5, 6, 7] },
  { vec := "f32x4", line := 129, kind := .f, size := 4, width := 4, op := .add,
    idx := [0, 1, 2, 3] },
  { vec := "f32x8", line := 131, kind := .f, size := 4, width := 8, op := .add,
    idx := [0, 1, 2, 3, 4, 5, 6, 7] },
  { vec := "f32x16", line := 132, kind := .f, size := 4, width := 16, op := .add,
    idx := [0, 1, 2, 3, 4, 5, 6, 7, 8, 9, 10, 11, 12, 13, 14, 15] }
]

/-- `hop!` instances in src/arch/unknown/intrin/hadd.rs. -/
def haddRowsUnknown : List HopRow := [
  { vec := "u64x2", line := 13, kind := .u, size := 8, width := 2, op := .add,
    idx := [0, 1] },
  { vec := "u32x4", line := 14, kind := .u, size := 4, width := 4, op := .add,
    idx := [0, 1, 2, 3] },
  { vec := "u16x8", line := 15, kind := .u, size := 2, width := 8, op := .add,
    idx := [0, 1, 2, 3, 4, 5, 6, 7] },
  { vec := "u8x16", line := 16, kind := .u, size := 1, width := 16, op := .add,
    idx := [0, 1, 2, 3, 4, 5, 6, 7, 8, 9, 10, 11, 12, 13, 14, 15] },
  { vec := "i64x2", line := 17, kind := .i, size := 8, width := 2, op := .add,
    idx := [0, 1] },
  { vec := "i32x4", line := 18, kind := .i, size := 4, width := 4, op := .add,
    idx := [0, 1, 2, 3] },
  { vec := "i16x8", line := 19, kind := .i, size := 2, width := 8, op := .add,
    idx := [0, 1, 2, 3, 4, 5, 6, 7] },
  { vec := "i8x16", line := 20, kind := .i, size := 1, width := 16, op := .add,
    idx := [0, 1, 2, 3, 4, 5, 6, 7, 8, 9, 10, 11, 12, 13, 14, 15] },
  { vec := "f64x2", line := 21, kind := .f, size := 8, width := 2, op := .add,
    idx := [0, 1] },
  { vec := "f32x4", line := 22, kind := .f, size := 4, width := 4, op := .add,
    idx := [0, 1, 2, 3] }
]

/-- `hop!` instances in src/arch/x86/intrin/hsub.rs. -/
def hsubRows : List HopRow := [
  { vec := "u64x2", line := 94, kind := .u, size := 8, width := 2, op := .sub,
    idx := [0, 1] },
  { vec := "u64x4", line := 95, kind := .u, size := 8, width := 4, op := .sub,
    idx := [0, 1, 2, 3] },
  { vec := "u64x8", line := 96, kind := .u, size := 8, width := 8, op := .sub,
    idx := [0, 1, 2, 3, 4, 5, 6, 7] },
  { vec := "u32x4", line := 97, kind := .u, size := 4, width := 4, op := .sub,
    idx := [0, 1, 2, 3] },
  { vec := "u32x8", line := 98, kind := .u, size := 4, width := 8, op := .sub,
    idx := [0, 1, 2, 3, 4, 5, 6, 7] },
  { vec := "u32x16", line := 99, kind := .u, size := 4, width := 16, op := .sub,
    idx := [0, 1, 2, 3, 4, 5, 6, 7, 8, 9, 10, 11, 12, 13, 14, 15] },
  { vec := "u16x8", line := 100, kind := .u, size := 2, width := 8, op := .sub,
    idx := [0, 1, 2, 3, 4, 5, 6, 7] },
  { vec := "u16x16", line := 101, kind := .u, size := 2, width := 16, op := .sub,
    idx := [0, 1, 2, 3, 4, 5, 6, 7, 8, 9, 10, 11, 12, 13, 14, 15] },
  { vec := "u16x32", line := 102, kind := .u, size := 2, width := 32, op := .sub,
    idx := [0, 1, 2, 3, 4, 5, 6, 7, 8, 9, 10, 11, 12, 13, 14, 15, 16, 17, 18, 19, 20, 21, 22, 23, 24, 25, 26, 27, 28, 29, 30, 31] },
  { vec := "u8x16", line := 103, kind := .u, size := 1, width := 16, op := .sub,
    idx := [0, 1, 2, 3, 4, 5, 6, 7, 8, 9, 10, 11, 12, 13, 14, 15] },
  { vec := "u8x32", line := 104, kind := .u, size := 1, width := 32, op := .sub,
    idx := [0, 1, 2, 3, 4, 5, 6, 7, 8, 9, 10, 11, 12, 13, 14, 15, 16, 17, 18, 19, 20, 21, 22, 23, 24, 25, 26, 27, 28, 29, 30, 31] },
  { vec := "u8x64", line := 105, kind := .u, size := 1, width := 64, op := .sub,
    idx := [0, 1, 2, 3, 4, 5, 6, 7, 8, 9, 10, 11, 12, 13, 14, 15, 16, 17, 18, 19, 20, 21, 22, 23, 24, 25, 26, 27, 28, 29, 30, 31, 32, 33, 34, 35, 36, 37, 38, 39, 40, 41, 42, 43, 44, 45, 46, 47, 48, 49, 50, 51, 52, 53, 54, 55, 56, 57, 58, 59, 60, 61, 62, 63] },
  { vec := "i64x2", line := 106, kind := .i, size := 8, width := 2, op := .sub,
    idx := [0, 1] },
  { vec := "i64x4", line := 107, kind := .i, size := 8, width := 4, op := .sub,
    idx := [0, 1, 2, 3] },
  { vec := "i64x8", line := 108, kind := .i, size := 8, width := 8, op := .sub,
    idx := [0, 1, 2, 3, 4, 5, 6, 7] },
  { vec := "i32x4", line := 110, kind := .i, size := 4, width := 4, op := .sub,
    idx := [0, 1, 2, 3] },
  { vec := "i32x8", line := 112, kind := .i, size := 4, width := 8, op := .sub,
    idx := [0, 1, 2, 3, 4, 5, 6, 7] },
  { vec := "i32x16", line := 113, kind := .i, size := 4, width := 16, op := .sub,
    idx := [0, 1, 2, 3, 4, 5, 6, 7, 8, 9, 10, 11, 12, 13, 14, 15] },
  { vec := "i16x8", line := 115, kind := .i, size := 2, width := 8, op := .sub,
    idx := [0, 1, 2, 3, 4, 5, 6, 7] },
  { vec := "i16x16", line := 117, kind := .i, size := 2, width := 16, op := .sub,
    idx := [0, 1, 2, 3, 4, 5, 6, 7, 8, 9, 10, 11, 12, 13, 14, 15] },
  { vec := "i16x32", line := 118, kind := .i, size := 2, width := 32, op := .sub,
    idx := [0, 1, 2, 3, 4, 5, 6, 7, 8, 9, 10, 11, 12, 13, 14, 15, 16, 17, 18, 19, 20, 21, 22, 23, 24, 25, 26, 27, 28, 29, 30, 31] },
  { vec := "i8x16", line := 119, kind := .i, size := 1, width := 16, op := .sub,
    idx := [0, 1, 2, 3, 4, 5, 6, 7, 8, 9, 10, 11, 12, 13, 14, 15] },
  { vec := "i8x32", line := 120, kind := .i, size := 1, width := 32, op := .sub,
    idx := [0, 1, 2, 3, 4, 5, 6, 7, 8, 9, 10, 11, 12, 13, 14, 15, 16, 17, 18, 19, 20, 21, 22, 23, 24, 25, 26, 27, 28, 29, 30, 31] },
  { vec := "i8x64", line := 121, kind := .i, size := 1, width := 64, op := .sub,
    idx := [0, 1, 2, 3, 4, 5, 6, 7, 8, 9, 10, 11, 12, 13, 14, 15, 16, 17, 18, 19, 20, 21, 22, 23, 24, 25, 26, 27, 28, 29, 30, 31, 32, 33, 34, 35, 36, 37, 38, 39, 40, 41, 42, 43, 44, 45, 46, 47, 48, 49, 50, 51, 52, 53, 54, 55, 56, 57, 58, 59, 60, 61, 62, 63] },
  { vec := "f64x2", line := 123, kind := .f, size := 8, width := 2, op := .sub,
    idx := [0, 1] },
  { vec := "f64x4", line := 125, kind := .f, size := 8, width := 4, op := .sub,
    idx := [0, 1, 2, 3] },
  { vec := "f64x8", line := 126, kind := .f, size := 8, width := 8, op := .sub,
    idx := [0, 1, 2, 3, 4, 5, 6, 7] },
  { vec := "f32x4", line := 128, kind := .f, size := 4, width := 4, op := .sub,
    idx := [0, 1, 2, 3] },
  { vec := "f32x8", line := 130, kind := .f, size := 4, width := 8, op := .sub,
    idx := [0, 1, 2, 3, 4, 5, 6, 7] },
  { vec := "f32x16", line := 131, kind := .f, size := 4, width := 16, op := .sub,
    idx := [0, 1, 2, 3, 4, 5, 6, 7, 8, 9, 10, 11, 12, 13, 14, 15] }
]

/-- `hop!` instances in src/arch/unknown/intrin/hsub.rs. -/
def hsubRowsUnknown : List HopRow := [
  { vec := "u64x2", line := 13, kind := .u, size := 8, width := 2, op := .sub,
    idx := [0, 1] },
  { vec := "u32x4", line := 14, kind := .u, size := 4, width := 4, op := .sub,
    idx := [0, 1, 2, 3] },
  { vec := "u16x8", line := 15, kind := .u, size := 2, width := 8, op := .sub,
    idx := [0, 1, 2, 3, 4, 5, 6, 7] },
  { vec := "u8x16", line := 16, kind := .u, size := 1, width := 16, op := .sub,
    idx := [0, 1, 2, 3, 4, 5, 6, 7, 8, 9, 10, 11, 12, 13, 14, 15] },
  { vec := "i64x2", line := 17, kind := .i, size := 8, width := 2, op := .sub,
    idx := [0, 1] },
  { vec := "i32x4", line := 18, kind := .i, size := 4, width := 4, op := .sub,
    idx := [0, 1, 2, 3] },
  { vec := "i16x8", line := 19, kind := .i, size := 2, width := 8, op := .sub,
    idx := [0, 1, 2, 3, 4, 5, 6, 7] },
  { vec := "i8x16", line := 20, kind := .i, size := 1, width := 16, op := .sub,
    idx := [0, 1, 2, 3, 4, 5, 6, 7, 8, 9, 10, 11, 12, 13, 14, 15] },
  { vec := "f64x2", line := 21, kind := .f, size := 8, width := 2, op := .sub,
    idx := [0, 1] },
  { vec := "f32x4", line := 22, kind := .f, size := 4, width := 4, op := .sub,
    idx := [0, 1, 2, 3] }
]

/-- `hop!` instances in src/arch/x86/intrin/saturating_hadd.rs. -/
def satHaddRows : List HopRow := [
  { vec := "u64x2", line := 35, kind := .u, size := 8, width := 2, op := .saturating_add,
    idx := [0, 1] },
  { vec := "u64x4", line := 36, kind := .u, size := 8, width := 4, op := .saturating_add,
    idx := [0, 1, 2, 3] },
  { vec := "u64x8", line := 37, kind := .u, size := 8, width := 8, op := .saturating_add,
    idx := [0, 1, 2, 3, 4, 5, 6, 7] },
  { vec := "u32x4", line := 38, kind := .u, size := 4, width := 4, op := .saturating_add,
    idx := [0, 1, 2, 3] },
  { vec := "u32x8", line := 39, kind := .u, size := 4, width := 8, op := .saturating_add,
    idx := [0, 1, 2, 3, 4, 5, 6, 7] },
  { vec := "u32x16", line := 40, kind := .u, size := 4, width := 16, op := .saturating_add,
    idx := [0, 1, 2, 3, 4, 5, 6, 7, 8, 9, 10, 11, 12, 13, 14, 15] },
  { vec := "u16x8", line := 41, kind := .u, size := 2, width := 8, op := .saturating_add,
    idx := [0, 1, 2, 3, 4, 5, 6, 7] },
  { vec := "u16x16", line := 42, kind := .u, size := 2, width := 16, op := .saturating_add,
    idx := [0, 1, 2, 3, 4, 5, 6, 7, 8, 9, 10, 11, 12, 13, 14, 15] },
  { vec := "u16x32", line := 43, kind := .u, size := 2, width := 32, op := .saturating_add,
    idx := [0, 1, 2, 3, 4, 5, 6, 7, 8, 9, 10, 11, 12, 13, 14, 15, 16, 17, 18, 19, 20, 21, 22, 23, 24, 25, 26, 27, 28, 29, 30, 31] },
  { vec := "u8x16", line := 44, kind := .u, size := 1, width := 16, op := .saturating_add,
    idx := [0, 1, 2, 3, 4, 5, 6, 7, 8, 9, 10, 11, 12, 13, 14, 15] },
  { vec := "u8x32", line := 45, kind := .u, size := 1, width := 32, op := .saturating_add,
    idx := [0, 1, 2, 3, 4, 5, 6, 7, 8, 9, 10, 11, 12, 13, 14, 15, 16, 17, 18, 19, 20, 21, 22, 23, 24, 25, 26, 27, 28, 29, 30, 31] },
  { vec := "u8x64", line := 46, kind := .u, size := 1, width := 64, op := .saturating_add,
    idx := [0, 1, 2, 3, 4, 5, 6, 7, 8, 9, 10, 11, 12, 13, 14, 15, 16, 17, 18, 19, 20, 21, 22, 23, 24, 25, 26, 27, 28, 29, 30, 31, 32, 33, 34, 35, 36, 37, 38, 39, 40, 41, 42, 43, 44, 45, 46, 47, 48, 49, 50, 51, 52, 53, 54, 55, 56, 57, 58, 59, 60, 61, 62, 63] },
  { vec := "i64x2", line := 47, kind := .i, size := 8, width := 2, op := .saturating_add,
    idx := [0, 1] },
  { vec := "i64x4", line := 48, kind := .i, size := 8, width := 4, op := .saturating_add,
    idx := [0, 1, 2, 3] },
  { vec := "i64x8", line := 49, kind := .i, size := 8, width := 8, op := .saturating_add,
    idx := [0, 1, 2, 3, 4, 5, 6, 7] },
  { vec := "i32x4", line := 50, kind := .i, size := 4, width := 4, op := .saturating_add,
    idx := [0, 1, 2, 3] },
  { vec := "i32x8", line := 51, kind := .i, size := 4, width := 8, op := .saturating_add,
    idx := [0, 1, 2, 3, 4, 5, 6, 7] },
  { vec := "i32x16", line := 52, kind := .i, size := 4, width := 16, op := .saturating_add,
    idx := [0, 1, 2, 3, 4, 5, 6, 7, 8, 9, 10, 11, 12, 13, 14, 15] },
  { vec := "i16x8", line := 54, kind := .i, size := 2, width := 8, op := .saturating_add,
    idx := [0, 1, 2, 3, 4, 5, 6, 7] },
  { vec := "i16x16", line := 56, kind := .i, size := 2, width := 16, op := .saturating_add,
    idx := [0, 1, 2, 3, 4, 5, 6, 7, 8, 9, 10, 11, 12, 13, 14, 15] },
  { vec := "i16x32", line := 57, kind := .i, size := 2, width := 32, op := .saturating_add,
    idx := [0, 1, 2, 3, 4, 5, 6, 7, 8, 9, 10, 11, 12, 13, 14, 15, 16, 17, 18, 19, 20, 21, 22, 23, 24, 25, 26, 27, 28, 29, 30, 31] },
  { vec := "i8x16", line := 58, kind := .i, size := 1, width := 16, op := .saturating_add,
    idx := [0, 1, 2, 3, 4, 5, 6, 7, 8, 9, 10, 11, 12, 13, 14, 15] },
  { vec := "i8x32", line := 59, kind := .i, size := 1, width := 32, op := .saturating_add,
    idx := [0, 1, 2, 3, 4, 5, 6, 7, 8, 9, 10, 11, 12, 13, 14, 15, 16, 17, 18, 19, 20, 21, 22, 23, 24, 25, 26, 27, 28, 29, 30, 31] },
  { vec := "i8x64", line := 60, kind := .i, size := 1, width := 64, op := .saturating_add,
    idx := [0, 1, 2, 3, 4, 5, 6, 7, 8, 9, 10, 11, 12, 13, 14, 15, 16, 17, 18, 19, 20, 21, 22, 23, 24, 25, 26, 27, 28, 29, 30, 31, 32, 33, 34, 35, 36, 37, 38, 39, 40, 41, 42, 43, 44, 45, 46, 47, 48, 49, 50, 51, 52, 53, 54, 55, 56, 57, 58, 59, 60, 61, 62, 63] }
]

/-- `hop!` instances in src/arch/unknown/intrin/saturating_hadd.rs. -/
def satHaddRowsUnknown : List HopRow := [
  { vec := "u64x2", line := 12, kind := .u, size := 8, width := 2, op := .saturating_add,
    idx := [0, 1] },
  { vec := "u32x4", line := 13, kind := .u, size := 4, width := 4, op := .saturating_add,
    idx := [0, 1, 2, 3] },
  { vec := "u16x8", line := 14, kind := .u, size := 2, width := 8, op := .saturating_add,
    idx := [0, 1, 2, 3, 4, 5, 6, 7] },
  { vec := "u8x16", line := 15, kind := .u, size := 1, width := 16, op := .saturating_add,
    idx := [0, 1, 2, 3, 4, 5, 6, 7, 8, 9, 10, 11, 12, 13, 14, 15] },
  { vec := "i64x2", line := 16, kind := .i, size := 8, width := 2, op := .saturating_add,
    idx := [0, 1] },
  { vec := "i32x4", line := 17, kind := .i, size := 4, width := 4, op := .saturating_add,
    idx := [0, 1, 2, 3] },
  { vec := "i16x8", line := 18, kind := .i, size := 2, width := 8, op := .saturating_add,
    idx := [0, 1, 2, 3, 4, 5, 6, 7] },
  { vec := "i8x16", line := 19, kind := .i, size := 1, width := 16, op := .saturating_add,
    idx := [0, 1, 2, 3, 4, 5, 6, 7, 8, 9, 10, 11, 12, 13, 14, 15] }
]

/-- `hop!` instances in src/arch/x86/intrin/saturating_hsub.rs. -/
def satHsubRows : List HopRow := [
  { vec := "u64x2", line := 35, kind := .u, size := 8, width := 2, op := .saturating_sub,
    idx := [0, 1] },
  { vec := "u64x4", line := 36, kind := .u, size := 8, width := 4, op := .saturating_sub,
    idx := [0, 1, 2, 3] },
  { vec := "u64x8", line := 37, kind := .u, size := 8, width := 8, op := .saturating_sub,
    idx := [0, 1, 2, 3, 4, 5, 6, 7] },
  { vec := "u32x4", line := 38, kind := .u, size := 4, width := 4, op := .saturating_sub,
    idx := [0, 1, 2, 3] },
  { vec := "u32x8", line := 39, kind := .u, size := 4, width := 8, op := .saturating_sub,
    idx := [0, 1, 2, 3, 4, 5, 6, 7] },
  { vec := "u32x16", line := 40, kind := .u, size := 4, width := 16, op := .saturating_sub,
    idx := [0, 1, 2, 3, 4, 5, 6, 7, 8, 9, 10, 11, 12, 13, 14, 15] },
  { vec := "u16x8", line := 41, kind := .u, size := 2, width := 8, op := .saturating_sub,
    idx := [0, 1, 2, 3, 4, 5, 6, 7] },
  { vec := "u16x16", line := 42, kind := .u, size := 2, width := 16, op := .saturating_sub,
    idx := [0, 1, 2, 3, 4, 5, 6, 7, 8, 9, 10, 11, 12, 13, 14, 15] },
  { vec := "u16x32", line := 43, kind := .u, size := 2, width := 32, op := .saturating_sub,
    idx := [0, 1, 2, 3, 4, 5, 6, 7, 8, 9, 10, 11, 12, 13, 14, 15, 16, 17, 18, 19, 20, 21, 22, 23, 24, 25, 26, 27, 28, 29, 30, 31] },
  { vec := "u8x16", line := 44, kind := .u, size := 1, width := 16, op := .saturating_sub,
    idx := [0, 1, 2, 3, 4, 5, 6, 7, 8, 9, 10, 11, 12, 13, 14, 15] },
  { vec := "u8x32", line := 45, kind := .u, size := 1, width := 32, op := .saturating_sub,
    idx := [0, 1, 2, 3, 4, 5, 6, 7, 8, 9, 10, 11, 12, 13, 14, 15, 16, 17, 18, 19, 20, 21, 22, 23, 24, 25, 26, 27, 28, 29, 30, 31] },
  { vec := "u8x64", line := 46, kind := .u, size := 1, width := 64, op := .saturating_sub,
    idx := [0, 1, 2, 3, 4, 5, 6, 7, 8, 9, 10, 11, 12, 13, 14, 15, 16, 17, 18, 19, 20, 21, 22, 23, 24, 25, 26, 27, 28, 29, 30, 31, 32, 33, 34, 35, 36, 37, 38, 39, 40, 41, 42, 43, 44, 45, 46, 47, 48, 49, 50, 51, 52, 53, 54, 55, 56, 57, 58, 59, 60, 61, 62, 63] },
  { vec := "i64x2", line := 47, kind := .i, size := 8, width := 2, op := .saturating_sub,
    idx := [0, 1] },
  { vec := "i64x4", line := 48, kind := .i, size := 8, width := 4, op := .saturating_sub,
    idx := [0, 1, 2, 3] },
  { vec := "i64x8", line := 49, kind := .i, size := 8, width := 8, op := .saturating_sub,
    idx := [0, 1, 2, 3, 4, 5, 6, 7] },
  { vec := "i32x4", line := 50, kind := .i, size := 4, width := 4, op := .saturating_sub,
    idx := [0, 1, 2, 3] },
  { vec := "i32x8", line := 51, kind := .i, size := 4, width := 8, op := .saturating_sub,
    idx := [0, 1, 2, 3, 4, 5, 6, 7] },
  { vec := "i32x16", line := 52, kind := .i, size := 4, width := 16, op := .saturating_sub,
    idx := [0, 1, 2, 3, 4, 5, 6, 7, 8, 9, 10, 11, 12, 13, 14, 15] },
  { vec := "i16x8", line := 54, kind := .i, size := 2, width := 8, op := .saturating_sub,
    idx := [0, 1, 2, 3, 4, 5, 6, 7] },
  { vec := "i16x16", line := 56, kind := .i, size := 2, width := 16, op := .saturating_sub,
    idx := [0, 1, 2, 3, 4, 5, 6, 7, 8, 9, 10, 11, 12, 13, 14, 15] },
  { vec := "i16x32", line := 57, kind := .i, size := 2, width := 32, op := .saturating_sub,
    idx := [0, 1, 2, 3, 4, 5, 6, 7, 8, 9, 10, 11, 12, 13, 14, 15, 16, 17, 18, 19, 20, 21, 22, 23, 24, 25, 26, 27, 28, 29, 30, 31] },
  { vec := "i8x16", line := 58, kind := .i, size := 1, width := 16, op := .saturating_sub,
    idx := [0, 1, 2, 3, 4, 5, 6, 7, 8, 9, 10, 11, 12, 13, 14, 15] },
  { vec := "i8x32", line := 59, kind := .i, size := 1, width := 32, op := .saturating_sub,
    idx := [0, 1, 2, 3, 4, 5, 6, 7, 8, 9, 10, 11, 12, 13, 14, 15, 16, 17, 18, 19, 20, 21, 22, 23, 24, 25, 26, 27, 28, 29, 30, 31] },
  { vec := "i8x64", line := 60, kind := .i, size := 1, width := 64, op := .saturating_sub,
    idx := [0, 1, 2, 3, 4, 5, 6, 7, 8, 9, 10, 11, 12, 13, 14, 15, 16, 17, 18, 19, 20, 21, 22, 23, 24, 25, 26, 27, 28, 29, 30, 31, 32, 33, 34, 35, 36, 37, 38, 39, 40, 41, 42, 43, 44, 45, 46, 47, 48, 49, 50, 51, 52, 53, 54, 55, 56, 57, 58, 59, 60, 61, 62, 63] }
]

/-- `hop!` instances in src/arch/unknown/intrin/saturating_hsub.rs. -/
def satHsubRowsUnknown : List HopRow := [
  { vec := "u64x2", line := 12, kind := .u, size := 8, width := 2, op := .saturating_sub,
    idx := [0, 1] },
  { vec := "u32x4", line := 13, kind := .u, size := 4, width := 4, op := .saturating_sub,
    idx := [0, 1, 2, 3] },
  { vec := "u16x8", line := 14, kind := .u, size := 2, width := 8, op := .saturating_sub,
    idx := [0, 1, 2, 3, 4, 5, 6, 7] },
  { vec := "u8x16", line := 15, kind := .u, size := 1, width := 16, op := .saturating_sub,
    idx := [0, 1, 2, 3, 4, 5, 6, 7, 8, 9, 10, 11, 12, 13, 14, 15] },
  { vec := "i64x2", line := 16, kind := .i, size := 8, width := 2, op := .saturating_sub,
    idx := [0, 1] },
  { vec := "i32x4", line := 17, kind := .i, size := 4, width := 4, op := .saturating_sub,
    idx := [0, 1, 2, 3] },
  { vec := "i16x8", line := 18, kind := .i, size := 2, width := 8, op := .saturating_sub,
    idx := [0, 1, 2, 3, 4, 5, 6, 7] },
  { vec := "i8x16", line := 19, kind := .i, size := 1, width := 16, op := .saturating_sub,
    idx := [0, 1, 2, 3, 4, 5, 6, 7, 8, 9, 10, 11, 12, 13, 14, 15] }
]

/-- Every use of an x86 instruction under src/arch/x86, with the feature gate of the
code around it. -/
def gateRows : List GateRow := [
  ⟨"arch/x86/intrin/abs.rs", 23, .sse, .mm_and_ps⟩,
  ⟨"arch/x86/intrin/abs.rs", 44, .sse2, .mm_and_pd⟩,
  ⟨"arch/x86/intrin/abs.rs", 63, .avx, .mm256_and_ps⟩,
  ⟨"arch/x86/intrin/abs.rs", 88, .avx, .mm256_and_pd⟩,
  ⟨"arch/x86/intrin/abs.rs", 109, .ssse3, .mm_abs_epi8⟩,
  ⟨"arch/x86/intrin/abs.rs", 142, .ssse3, .mm_abs_epi16⟩,
  ⟨"arch/x86/intrin/abs.rs", 167, .ssse3, .mm_abs_epi32⟩,
  ⟨"arch/x86/intrin/abs.rs", 188, .avx2, .mm256_abs_epi8⟩,
  ⟨"arch/x86/intrin/abs.rs", 236, .avx2, .mm256_abs_epi16⟩,
  ⟨"arch/x86/intrin/abs.rs", 268, .avx2, .mm256_abs_epi32⟩,
  ⟨"arch/x86/intrin/cmp.rs", 16, .sse2, .mm_min_epu8⟩,
  ⟨"arch/x86/intrin/cmp.rs", 17, .sse2, .mm_max_epu8⟩,
  ⟨"arch/x86/intrin/cmp.rs", 23, .sse41, .mm_min_epi8⟩,
  ⟨"arch/x86/intrin/cmp.rs", 24, .sse41, .mm_max_epi8⟩,
  ⟨"arch/x86/intrin/cmp.rs", 30, .sse41, .mm_min_epu16⟩,
  ⟨"arch/x86/intrin/cmp.rs", 31, .sse41, .mm_max_epu16⟩,
  ⟨"arch/x86/intrin/cmp.rs", 37, .sse41, .mm_min_epi16⟩,
  ⟨"arch/x86/intrin/cmp.rs", 38, .sse41, .mm_max_epi16⟩,
  ⟨"arch/x86/intrin/cmp.rs", 44, .sse41, .mm_min_epu32⟩,
  ⟨"arch/x86/intrin/cmp.rs", 45, .sse41, .mm_max_epu32⟩,
  ⟨"arch/x86/intrin/cmp.rs", 51, .sse41, .mm_min_epi32⟩,
  ⟨"arch/x86/intrin/cmp.rs", 52, .sse41, .mm_max_epi32⟩,
  ⟨"arch/x86/intrin/cmp.rs", 58, .sse, .mm_min_ps⟩,
  ⟨"arch/x86/intrin/cmp.rs", 59, .sse, .mm_max_ps⟩,
  ⟨"arch/x86/intrin/cmp.rs", 65, .sse2, .mm_min_pd⟩,
  ⟨"arch/x86/intrin/cmp.rs", 66, .sse2, .mm_max_pd⟩,
  ⟨"arch/x86/intrin/cmp.rs", 72, .avx2, .mm256_min_epu8⟩,
  ⟨"arch/x86/intrin/cmp.rs", 74, .avx2, .mm256_max_epu8⟩,
  ⟨"arch/x86/intrin/cmp.rs", 81, .avx2, .mm256_min_epi8⟩,
  ⟨"arch/x86/intrin/cmp.rs", 83, .avx2, .mm256_max_epi8⟩,
  ⟨"arch/x86/intrin/cmp.rs", 90, .avx2, .mm256_min_epu16⟩,
  ⟨"arch/x86/intrin/cmp.rs", 91, .avx2, .mm256_max_epu16⟩,
  ⟨"arch/x86/intrin/cmp.rs", 97, .avx2, .mm256_min_epi16⟩,
  ⟨"arch/x86/intrin/cmp.rs", 98, .avx2, .mm256_max_epi16⟩,
  ⟨"arch/x86/intrin/cmp.rs", 104, .avx, .mm256_min_epu32⟩,
  ⟨"arch/x86/intrin/cmp.rs", 105, .avx, .mm256_max_epu32⟩,
  ⟨"arch/x86/intrin/cmp.rs", 111, .avx, .mm256_min_epi32⟩,
  ⟨"arch/x86/intrin/cmp.rs", 112, .avx, .mm256_max_epi32⟩,
  ⟨"arch/x86/intrin/cmp.rs", 118, .avx, .mm256_min_ps⟩,
  ⟨"arch/x86/intrin/cmp.rs", 119, .avx, .mm256_max_ps⟩,
  ⟨"arch/x86/intrin/cmp.rs", 125, .avx, .mm256_min_pd⟩,
  ⟨"arch/x86/intrin/cmp.rs", 126, .avx, .mm256_max_pd⟩,
  ⟨"arch/x86/intrin/destride.rs", 16, .ssse3, .mm_shuffle_epi8⟩,
  ⟨"arch/x86/intrin/destride.rs", 17, .ssse3, .mm_shuffle_epi8⟩,
  ⟨"arch/x86/intrin/destride.rs", 19, .ssse3, .mm_shuffle_epi8⟩,
  ⟨"arch/x86/intrin/destride.rs", 45, .avx2, .mm256_shuffle_epi8⟩,
  ⟨"arch/x86/intrin/destride.rs", 46, .avx2, .mm256_shuffle_epi8⟩,
  ⟨"arch/x86/intrin/destride.rs", 48, .avx2, .mm256_permute4x64_epi64⟩,
  ⟨"arch/x86/intrin/destride.rs", 49, .avx2, .mm256_permute4x64_epi64⟩,
  ⟨"arch/x86/intrin/destride.rs", 51, .avx2, .mm256_permute4x64_epi64⟩,
  ⟨"arch/x86/intrin/destride.rs", 76, .ssse3, .mm_shuffle_epi8⟩,
  ⟨"arch/x86/intrin/destride.rs", 77, .ssse3, .mm_shuffle_epi8⟩,
  ⟨"arch/x86/intrin/destride.rs", 79, .ssse3, .mm_shuffle_epi8⟩,
  ⟨"arch/x86/intrin/destride.rs", 105, .avx2, .mm256_shuffle_epi8⟩,
  ⟨"arch/x86/intrin/destride.rs", 106, .avx2, .mm256_shuffle_epi8⟩,
  ⟨"arch/x86/intrin/destride.rs", 108, .avx2, .mm256_permute4x64_epi64⟩,
  ⟨"arch/x86/intrin/destride.rs", 109, .avx2, .mm256_permute4x64_epi64⟩,
  ⟨"arch/x86/intrin/destride.rs", 111, .avx2, .mm256_permute4x64_epi64⟩,
  ⟨"arch/x86/intrin/downcast.rs", 21, .sse2, .mm_packs_epi32⟩,
  ⟨"arch/x86/intrin/downcast.rs", 77, .sse2, .mm_packs_epi16⟩,
  ⟨"arch/x86/intrin/downcast.rs", 108, .sse41, .mm_packus_epi32⟩,
  ⟨"arch/x86/intrin/downcast.rs", 131, .sse2, .mm_packus_epi16⟩,
  ⟨"arch/x86/intrin/downcast.rs", 162, .avx2, .mm256_packs_epi32⟩,
  ⟨"arch/x86/intrin/downcast.rs", 193, .avx2, .mm256_packs_epi16⟩,
  ⟨"arch/x86/intrin/downcast.rs", 240, .avx2, .mm256_packus_epi32⟩,
  ⟨"arch/x86/intrin/downcast.rs", 271, .avx2, .mm256_packus_epi16⟩,
  ⟨"arch/x86/intrin/endian.rs", 9, .never, .mm512_permutexvar_epi8⟩,
  ⟨"arch/x86/intrin/endian.rs", 12, .avx2, .mm256_shuffle_epi8⟩,
  ⟨"arch/x86/intrin/endian.rs", 15, .ssse3, .mm_shuffle_epi8⟩,
  ⟨"arch/x86/intrin/endian.rs", 18, .never, .mm512_permutexvar_epi8⟩,
  ⟨"arch/x86/intrin/endian.rs", 21, .avx2, .mm256_shuffle_epi8⟩,
  ⟨"arch/x86/intrin/endian.rs", 24, .ssse3, .mm_shuffle_epi8⟩,
  ⟨"arch/x86/intrin/endian.rs", 27, .never, .mm512_permutexvar_epi8⟩,
  ⟨"arch/x86/intrin/endian.rs", 30, .avx2, .mm256_shuffle_epi8⟩,
  ⟨"arch/x86/intrin/endian.rs", 33, .ssse3, .mm_shuffle_epi8⟩,
  ⟨"arch/x86/intrin/endian.rs", 36, .never, .mm512_permutexvar_epi8⟩,
  ⟨"arch/x86/intrin/endian.rs", 39, .avx2, .mm256_shuffle_epi8⟩,
  ⟨"arch/x86/intrin/endian.rs", 42, .ssse3, .mm_shuffle_epi8⟩,
  ⟨"arch/x86/intrin/endian.rs", 45, .never, .mm512_permutexvar_epi8⟩,
  ⟨"arch/x86/intrin/endian.rs", 48, .avx2, .mm256_shuffle_epi8⟩,
  ⟨"arch/x86/intrin/endian.rs", 51, .ssse3, .mm_shuffle_epi8⟩,
  ⟨"arch/x86/intrin/endian.rs", 54, .never, .mm512_permutexvar_epi8⟩,
  ⟨"arch/x86/intrin/endian.rs", 57, .avx2, .mm256_shuffle_epi8⟩,
  ⟨"arch/x86/intrin/endian.rs", 60, .ssse3, .mm_shuffle_epi8⟩,
  ⟨"arch/x86/intrin/endian.rs", 63, .never, .mm512_permutexvar_epi8⟩,
  ⟨"arch/x86/intrin/endian.rs", 66, .avx2, .mm256_shuffle_epi8⟩,
  ⟨"arch/x86/intrin/endian.rs", 69, .ssse3, .mm_shuffle_epi8⟩,
  ⟨"arch/x86/intrin/endian.rs", 72, .never, .mm512_permutexvar_epi8⟩,
  ⟨"arch/x86/intrin/endian.rs", 75, .avx2, .mm256_shuffle_epi8⟩,
  ⟨"arch/x86/intrin/endian.rs", 78, .ssse3, .mm_shuffle_epi8⟩,
  ⟨"arch/x86/intrin/eq.rs", 17, .sse2, .mm_cmpeq_epi8⟩,
  ⟨"arch/x86/intrin/eq.rs", 23, .sse41, .mm_cmpeq_epi8⟩,
  ⟨"arch/x86/intrin/eq.rs", 29, .sse41, .mm_cmpeq_epi16⟩,
  ⟨"arch/x86/intrin/eq.rs", 35, .sse41, .mm_cmpeq_epi16⟩,
  ⟨"arch/x86/intrin/eq.rs", 41, .sse41, .mm_cmpeq_epi32⟩,
  ⟨"arch/x86/intrin/eq.rs", 47, .sse41, .mm_cmpeq_epi32⟩,
  ⟨"arch/x86/intrin/eq.rs", 53, .sse, .mm_cmpeq_ps⟩,
  ⟨"arch/x86/intrin/eq.rs", 59, .sse2, .mm_cmpeq_pd⟩,
  ⟨"arch/x86/intrin/eq.rs", 65, .sse41, .mm_cmpeq_epi64⟩,
  ⟨"arch/x86/intrin/eq.rs", 71, .sse41, .mm_cmpeq_epi64⟩,
  ⟨"arch/x86/intrin/eq.rs", 77, .avx2, .mm256_cmpeq_epi8⟩,
  ⟨"arch/x86/intrin/eq.rs", 84, .avx2, .mm256_cmpeq_epi8⟩,
  ⟨"arch/x86/intrin/eq.rs", 91, .avx2, .mm256_cmpeq_epi16⟩,
  ⟨"arch/x86/intrin/eq.rs", 97, .avx2, .mm256_cmpeq_epi16⟩,
  ⟨"arch/x86/intrin/eq.rs", 103, .avx2, .mm256_cmpeq_epi32⟩,
  ⟨"arch/x86/intrin/eq.rs", 109, .avx2, .mm256_cmpeq_epi32⟩,
  ⟨"arch/x86/intrin/eq.rs", 115, .avx, .mm256_cmp_ps⟩,
  ⟨"arch/x86/intrin/eq.rs", 121, .avx, .mm256_cmp_pd⟩,
  ⟨"arch/x86/intrin/eq.rs", 127, .avx2, .mm256_cmpeq_epi64⟩,
  ⟨"arch/x86/intrin/eq.rs", 133, .avx2, .mm256_cmpeq_epi64⟩,
  ⟨"arch/x86/intrin/hadd.rs", 21, .sse3, .mm_hadd_ps⟩,
  ⟨"arch/x86/intrin/hadd.rs", 21, .sse3, .mm_shuffle_ps⟩,
  ⟨"arch/x86/intrin/hadd.rs", 22, .sse3, .mm_shuffle_ps⟩,
  ⟨"arch/x86/intrin/hadd.rs", 32, .sse3, .mm_hadd_pd⟩,
  ⟨"arch/x86/intrin/hadd.rs", 41, .avx2, .mm256_hadd_ps⟩,
  ⟨"arch/x86/intrin/hadd.rs", 41, .avx2, .mm256_unpacklo_epi64⟩,
  ⟨"arch/x86/intrin/hadd.rs", 42, .avx2, .mm256_unpackhi_epi64⟩,
  ⟨"arch/x86/intrin/hadd.rs", 51, .avx, .mm256_hadd_pd⟩,
  ⟨"arch/x86/intrin/hadd.rs", 60, .ssse3, .mm_hadd_epi16⟩,
  ⟨"arch/x86/intrin/hadd.rs", 60, .ssse3, .mm_unpacklo_epi32⟩,
  ⟨"arch/x86/intrin/hadd.rs", 61, .ssse3, .mm_unpackhi_epi32⟩,
  ⟨"arch/x86/intrin/hadd.rs", 70, .ssse3, .mm_hadd_epi32⟩,
  ⟨"arch/x86/intrin/hadd.rs", 70, .ssse3, .mm_unpacklo_epi64⟩,
  ⟨"arch/x86/intrin/hadd.rs", 71, .ssse3, .mm_unpackhi_epi64⟩,
  ⟨"arch/x86/intrin/hadd.rs", 80, .avx2, .mm256_hadd_epi16⟩,
  ⟨"arch/x86/intrin/hadd.rs", 80, .avx2, .mm256_unpacklo_epi32⟩,
  ⟨"arch/x86/intrin/hadd.rs", 81, .avx2, .mm256_unpackhi_epi32⟩,
  ⟨"arch/x86/intrin/hadd.rs", 90, .avx2, .mm256_hadd_epi32⟩,
  ⟨"arch/x86/intrin/hadd.rs", 90, .avx2, .mm256_unpacklo_epi64⟩,
  ⟨"arch/x86/intrin/hadd.rs", 91, .avx2, .mm256_unpackhi_epi64⟩,
  ⟨"arch/x86/intrin/hsub.rs", 21, .sse3, .mm_hsub_ps⟩,
  ⟨"arch/x86/intrin/hsub.rs", 21, .sse3, .mm_shuffle_ps⟩,
  ⟨"arch/x86/intrin/hsub.rs", 22, .sse3, .mm_shuffle_ps⟩,
  ⟨"arch/x86/intrin/hsub.rs", 31, .sse3, .mm_hsub_pd⟩,
  ⟨"arch/x86/intrin/hsub.rs", 40, .avx2, .mm256_hsub_ps⟩,
  ⟨"arch/x86/intrin/hsub.rs", 40, .avx2, .mm256_unpacklo_epi64⟩,
  ⟨"arch/x86/intrin/hsub.rs", 41, .avx2, .mm256_unpackhi_epi64⟩,
  ⟨"arch/x86/intrin/hsub.rs", 50, .avx, .mm256_hsub_pd⟩,
  ⟨"arch/x86/intrin/hsub.rs", 59, .ssse3, .mm_hsub_epi16⟩,
  ⟨"arch/x86/intrin/hsub.rs", 59, .ssse3, .mm_unpacklo_epi32⟩,
  ⟨"arch/x86/intrin/hsub.rs", 60, .ssse3, .mm_unpackhi_epi32⟩,
  ⟨"arch/x86/intrin/hsub.rs", 69, .ssse3, .mm_hsub_epi32⟩,
  ⟨"arch/x86/intrin/hsub.rs", 69, .ssse3, .mm_unpacklo_epi64⟩,
  ⟨"arch/x86/intrin/hsub.rs", 70, .ssse3, .mm_unpackhi_epi64⟩,
  ⟨"arch/x86/intrin/hsub.rs", 79, .avx2, .mm256_hsub_epi16⟩,
  ⟨"arch/x86/intrin/hsub.rs", 79, .avx2, .mm256_unpacklo_epi32⟩,
  ⟨"arch/x86/intrin/hsub.rs", 80, .avx2, .mm256_unpackhi_epi32⟩,
  ⟨"arch/x86/intrin/hsub.rs", 89, .avx2, .mm256_hsub_epi32⟩,
  ⟨"arch/x86/intrin/hsub.rs", 89, .avx2, .mm256_unpacklo_epi64⟩,
  ⟨"arch/x86/intrin/hsub.rs", 90, .avx2, .mm256_unpackhi_epi64⟩,
  ⟨"arch/x86/intrin/merge.rs", 12, .sse41, .mm_blendv_epi8⟩,
  ⟨"arch/x86/intrin/merge.rs", 13, .avx2, .mm256_blendv_epi8⟩,
  ⟨"arch/x86/intrin/merge.rs", 14, .never, .mm512_mask_mov_epi8⟩,
  ⟨"arch/x86/intrin/merge.rs", 16, .sse41, .mm_blendv_epi8⟩,
  ⟨"arch/x86/intrin/merge.rs", 17, .avx2, .mm256_blendv_epi8⟩,
  ⟨"arch/x86/intrin/merge.rs", 18, .never, .mm512_mask_mov_epi8⟩,
  ⟨"arch/x86/intrin/merge.rs", 20, .sse41, .mm_blendv_epi8⟩,
  ⟨"arch/x86/intrin/merge.rs", 21, .avx2, .mm256_blendv_epi8⟩,
  ⟨"arch/x86/intrin/merge.rs", 22, .never, .mm512_mask_mov_epi8⟩,
  ⟨"arch/x86/intrin/merge.rs", 24, .sse41, .mm_blendv_epi8⟩,
  ⟨"arch/x86/intrin/merge.rs", 25, .avx2, .mm256_blendv_epi8⟩,
  ⟨"arch/x86/intrin/merge.rs", 26, .never, .mm512_mask_mov_epi8⟩,
  ⟨"arch/x86/intrin/merge.rs", 28, .sse41, .mm_blendv_epi8⟩,
  ⟨"arch/x86/intrin/merge.rs", 29, .avx2, .mm256_blendv_epi8⟩,
  ⟨"arch/x86/intrin/merge.rs", 30, .never, .mm512_mask_mov_epi8⟩,
  ⟨"arch/x86/intrin/merge.rs", 32, .sse41, .mm_blendv_epi8⟩,
  ⟨"arch/x86/intrin/merge.rs", 33, .avx2, .mm256_blendv_epi8⟩,
  ⟨"arch/x86/intrin/merge.rs", 34, .never, .mm512_mask_mov_epi8⟩,
  ⟨"arch/x86/intrin/merge.rs", 36, .sse41, .mm_blendv_epi8⟩,
  ⟨"arch/x86/intrin/merge.rs", 37, .avx2, .mm256_blendv_epi8⟩,
  ⟨"arch/x86/intrin/merge.rs", 38, .never, .mm512_mask_mov_epi8⟩,
  ⟨"arch/x86/intrin/merge.rs", 40, .sse41, .mm_blendv_epi8⟩,
  ⟨"arch/x86/intrin/merge.rs", 41, .avx2, .mm256_blendv_epi8⟩,
  ⟨"arch/x86/intrin/merge.rs", 42, .never, .mm512_mask_mov_epi8⟩,
  ⟨"arch/x86/intrin/merge.rs", 44, .sse41, .mm_blendv_epi8⟩,
  ⟨"arch/x86/intrin/merge.rs", 45, .avx2, .mm256_blendv_epi8⟩,
  ⟨"arch/x86/intrin/merge.rs", 46, .never, .mm512_mask_mov_epi8⟩,
  ⟨"arch/x86/intrin/merge.rs", 48, .sse41, .mm_blendv_epi8⟩,
  ⟨"arch/x86/intrin/merge.rs", 49, .avx2, .mm256_blendv_epi8⟩,
  ⟨"arch/x86/intrin/merge.rs", 50, .never, .mm512_mask_mov_epi8⟩,
  ⟨"arch/x86/intrin/popcnt.rs", 28, .ssse3, .mm_shuffle_epi8⟩,
  ⟨"arch/x86/intrin/popcnt.rs", 29, .ssse3, .mm_shuffle_epi8⟩,
  ⟨"arch/x86/intrin/popcnt.rs", 51, .avx2, .mm256_shuffle_epi8⟩,
  ⟨"arch/x86/intrin/popcnt.rs", 52, .avx2, .mm256_shuffle_epi8⟩,
  ⟨"arch/x86/intrin/recip.rs", 16, .avx, .mm256_rcp_ps⟩,
  ⟨"arch/x86/intrin/recip.rs", 22, .sse, .mm_rcp_ps⟩,
  ⟨"arch/x86/intrin/round.rs", 17, .sse41, .mm_round_ps⟩,
  ⟨"arch/x86/intrin/round.rs", 18, .sse41, .mm_ceil_ps⟩,
  ⟨"arch/x86/intrin/round.rs", 19, .sse41, .mm_floor_ps⟩,
  ⟨"arch/x86/intrin/round.rs", 20, .sse41, .mm_round_ps⟩,
  ⟨"arch/x86/intrin/round.rs", 26, .sse41, .mm_round_pd⟩,
  ⟨"arch/x86/intrin/round.rs", 27, .sse41, .mm_ceil_pd⟩,
  ⟨"arch/x86/intrin/round.rs", 28, .sse41, .mm_floor_pd⟩,
  ⟨"arch/x86/intrin/round.rs", 29, .sse41, .mm_round_pd⟩,
  ⟨"arch/x86/intrin/round.rs", 35, .avx, .mm256_round_ps⟩,
  ⟨"arch/x86/intrin/round.rs", 36, .avx, .mm256_ceil_ps⟩,
  ⟨"arch/x86/intrin/round.rs", 37, .avx, .mm256_floor_ps⟩,
  ⟨"arch/x86/intrin/round.rs", 38, .avx, .mm256_round_ps⟩,
  ⟨"arch/x86/intrin/round.rs", 44, .sse41, .mm256_round_pd⟩,
  ⟨"arch/x86/intrin/round.rs", 45, .sse41, .mm256_ceil_pd⟩,
  ⟨"arch/x86/intrin/round.rs", 46, .sse41, .mm256_floor_pd⟩,
  ⟨"arch/x86/intrin/round.rs", 47, .sse41, .mm256_round_pd⟩,
  ⟨"arch/x86/intrin/rsqrt.rs", 18, .avx, .mm256_rsqrt_ps⟩,
  ⟨"arch/x86/intrin/rsqrt.rs", 24, .sse, .mm_rsqrt_ps⟩,
  ⟨"arch/x86/intrin/saturating_add.rs", 16, .sse2, .mm_adds_epu8⟩,
  ⟨"arch/x86/intrin/saturating_add.rs", 22, .sse2, .mm_adds_epi8⟩,
  ⟨"arch/x86/intrin/saturating_add.rs", 28, .sse2, .mm_adds_epu16⟩,
  ⟨"arch/x86/intrin/saturating_add.rs", 34, .sse2, .mm_adds_epi16⟩,
  ⟨"arch/x86/intrin/saturating_add.rs", 40, .avx2, .mm256_adds_epu8⟩,
  ⟨"arch/x86/intrin/saturating_add.rs", 48, .avx2, .mm256_adds_epi8⟩,
  ⟨"arch/x86/intrin/saturating_add.rs", 55, .avx2, .mm256_adds_epu16⟩,
  ⟨"arch/x86/intrin/saturating_add.rs", 61, .avx2, .mm256_adds_epi16⟩,
  ⟨"arch/x86/intrin/saturating_hadd.rs", 20, .ssse3, .mm_hadds_epi16⟩,
  ⟨"arch/x86/intrin/saturating_hadd.rs", 20, .ssse3, .mm_unpacklo_epi32⟩,
  ⟨"arch/x86/intrin/saturating_hadd.rs", 21, .ssse3, .mm_unpackhi_epi32⟩,
  ⟨"arch/x86/intrin/saturating_hadd.rs", 30, .avx2, .mm256_hadds_epi16⟩,
  ⟨"arch/x86/intrin/saturating_hadd.rs", 30, .avx2, .mm256_unpacklo_epi32⟩,
  ⟨"arch/x86/intrin/saturating_hadd.rs", 31, .avx2, .mm256_unpackhi_epi32⟩,
  ⟨"arch/x86/intrin/saturating_hsub.rs", 20, .ssse3, .mm_hsubs_epi16⟩,
  ⟨"arch/x86/intrin/saturating_hsub.rs", 20, .ssse3, .mm_unpacklo_epi32⟩,
  ⟨"arch/x86/intrin/saturating_hsub.rs", 21, .ssse3, .mm_unpackhi_epi32⟩,
  ⟨"arch/x86/intrin/saturating_hsub.rs", 30, .avx2, .mm256_hsubs_epi16⟩,
  ⟨"arch/x86/intrin/saturating_hsub.rs", 30, .avx2, .mm256_unpacklo_epi32⟩,
  ⟨"arch/x86/intrin/saturating_hsub.rs", 31, .avx2, .mm256_unpackhi_epi32⟩,
  ⟨"arch/x86/intrin/saturating_sub.rs", 16, .sse2, .mm_subs_epu8⟩,
  ⟨"arch/x86/intrin/saturating_sub.rs", 22, .sse2, .mm_subs_epi8⟩,
  ⟨"arch/x86/intrin/saturating_sub.rs", 28, .sse2, .mm_subs_epu16⟩,
  ⟨"arch/x86/intrin/saturating_sub.rs", 34, .sse2, .mm_subs_epi16⟩,
  ⟨"arch/x86/intrin/saturating_sub.rs", 40, .avx2, .mm256_subs_epu8⟩,
  ⟨"arch/x86/intrin/saturating_sub.rs", 47, .avx2, .mm256_subs_epi8⟩,
  ⟨"arch/x86/intrin/saturating_sub.rs", 54, .avx2, .mm256_subs_epu16⟩,
  ⟨"arch/x86/intrin/saturating_sub.rs", 60, .avx2, .mm256_subs_epi16⟩,
  ⟨"arch/x86/intrin/sqrt.rs", 16, .avx, .mm256_sqrt_ps⟩,
  ⟨"arch/x86/intrin/sqrt.rs", 22, .avx, .mm256_sqrt_pd⟩,
  ⟨"arch/x86/intrin/sqrt.rs", 28, .sse, .mm_sqrt_ps⟩,
  ⟨"arch/x86/intrin/sqrt.rs", 34, .sse2, .mm_sqrt_pd⟩,
  ⟨"arch/x86/intrin/sum.rs", 33, .sse2, .mm_sad_epu8⟩,
  ⟨"arch/x86/intrin/sum.rs", 34, .sse2, .mm_sad_epu8⟩,
  ⟨"arch/x86/intrin/sum.rs", 45, .sse2, .mm_sad_epu8⟩,
  ⟨"arch/x86/intrin/sum.rs", 46, .sse2, .mm_sad_epu8⟩,
  ⟨"arch/x86/intrin/sum.rs", 57, .avx2, .mm256_sad_epu8⟩,
  ⟨"arch/x86/intrin/sum.rs", 58, .avx2, .mm256_sad_epu8⟩,
  ⟨"arch/x86/intrin/sum.rs", 71, .avx2, .mm256_sad_epu8⟩,
  ⟨"arch/x86/intrin/sum.rs", 72, .avx2, .mm256_sad_epu8⟩,
  ⟨"arch/x86/intrin/sum.rs", 85, .sse2, .mm_sad_epu8⟩,
  ⟨"arch/x86/intrin/sum.rs", 95, .sse2, .mm_sad_epu8⟩,
  ⟨"arch/x86/intrin/sum.rs", 105, .avx2, .mm256_sad_epu8⟩,
  ⟨"arch/x86/intrin/sum.rs", 115, .avx2, .mm256_sad_epu8⟩,
  ⟨"arch/x86/intrin/sum.rs", 126, .ssse3, .mm_hadd_epi16⟩,
  ⟨"arch/x86/intrin/sum.rs", 127, .ssse3, .mm_hadd_epi16⟩,
  ⟨"arch/x86/intrin/sum.rs", 128, .ssse3, .mm_hadd_epi16⟩,
  ⟨"arch/x86/intrin/sum.rs", 140, .avx2, .mm256_hadd_epi16⟩,
  ⟨"arch/x86/intrin/sum.rs", 141, .avx2, .mm256_hadd_epi16⟩,
  ⟨"arch/x86/intrin/sum.rs", 142, .avx2, .mm256_hadd_epi16⟩,
  ⟨"arch/x86/intrin/sum.rs", 155, .avx2, .mm256_hadd_epi32⟩,
  ⟨"arch/x86/intrin/sum.rs", 156, .avx2, .mm256_hadd_epi32⟩,
  ⟨"arch/x86/intrin/sum.rs", 157, .avx2, .mm256_hadd_epi32⟩,
  ⟨"arch/x86/intrin/sum.rs", 158, .avx2, .mm256_hadd_epi32⟩,
  ⟨"arch/x86/intrin/sum.rs", 171, .avx2, .mm256_hadd_epi32⟩,
  ⟨"arch/x86/intrin/sum.rs", 172, .avx2, .mm256_hadd_epi32⟩,
  ⟨"arch/x86/intrin/sum.rs", 173, .avx2, .mm256_hadd_epi32⟩,
  ⟨"arch/x86/intrin/sum.rs", 174, .avx2, .mm256_hadd_epi32⟩,
  ⟨"arch/x86/intrin/sum.rs", 187, .avx2, .mm256_hadd_epi32⟩,
  ⟨"arch/x86/intrin/sum.rs", 188, .avx2, .mm256_hadd_epi32⟩,
  ⟨"arch/x86/intrin/sum.rs", 189, .avx2, .mm256_hadd_epi32⟩,
  ⟨"arch/x86/intrin/sum.rs", 190, .avx2, .mm256_hadd_epi32⟩,
  ⟨"arch/x86/intrin/sum.rs", 202, .avx2, .mm256_hadd_epi32⟩,
  ⟨"arch/x86/intrin/sum.rs", 203, .avx2, .mm256_hadd_epi32⟩,
  ⟨"arch/x86/intrin/sum.rs", 215, .sse3, .mm_hadd_ps⟩,
  ⟨"arch/x86/intrin/sum.rs", 216, .sse3, .mm_hadd_ps⟩,
  ⟨"arch/x86/intrin/sum.rs", 228, .sse3, .mm_hadd_pd⟩,
  ⟨"arch/x86/intrin/sum.rs", 240, .avx, .mm256_hadd_ps⟩,
  ⟨"arch/x86/intrin/sum.rs", 241, .avx, .mm256_hadd_ps⟩,
  ⟨"arch/x86/intrin/sum.rs", 253, .avx, .mm256_hadd_pd⟩,
  ⟨"arch/x86/intrin/swizzle.rs", 8, .never, .mm512_permutexvar_epi8⟩,
  ⟨"arch/x86/intrin/swizzle.rs", 11, .avx2, .mm256_shuffle_epi8⟩,
  ⟨"arch/x86/intrin/swizzle.rs", 14, .ssse3, .mm_shuffle_epi8⟩,
  ⟨"arch/x86/intrin/swizzle.rs", 17, .never, .mm512_permutexvar_epi8⟩,
  ⟨"arch/x86/intrin/swizzle.rs", 20, .avx2, .mm256_shuffle_epi8⟩,
  ⟨"arch/x86/intrin/swizzle.rs", 23, .ssse3, .mm_shuffle_epi8⟩,
  ⟨"arch/x86/intrin/swizzle.rs", 26, .never, .mm512_permutexvar_epi8⟩,
  ⟨"arch/x86/intrin/swizzle.rs", 29, .avx2, .mm256_shuffle_epi8⟩,
  ⟨"arch/x86/intrin/swizzle.rs", 32, .ssse3, .mm_shuffle_epi8⟩,
  ⟨"arch/x86/intrin/swizzle.rs", 35, .never, .mm512_permutexvar_epi8⟩,
  ⟨"arch/x86/intrin/swizzle.rs", 38, .avx2, .mm256_shuffle_epi8⟩,
  ⟨"arch/x86/intrin/swizzle.rs", 41, .ssse3, .mm_shuffle_epi8⟩,
  ⟨"arch/x86/intrin/swizzle.rs", 44, .never, .mm512_permutexvar_epi8⟩,
  ⟨"arch/x86/intrin/swizzle.rs", 47, .avx2, .mm256_shuffle_epi8⟩,
  ⟨"arch/x86/intrin/swizzle.rs", 50, .ssse3, .mm_shuffle_epi8⟩,
  ⟨"arch/x86/intrin/swizzle.rs", 53, .never, .mm512_permutexvar_epi8⟩,
  ⟨"arch/x86/intrin/swizzle.rs", 56, .avx2, .mm256_shuffle_epi8⟩,
  ⟨"arch/x86/intrin/swizzle.rs", 59, .ssse3, .mm_shuffle_epi8⟩,
  ⟨"arch/x86/intrin/swizzle.rs", 62, .never, .mm512_permutexvar_epi8⟩,
  ⟨"arch/x86/intrin/swizzle.rs", 65, .avx2, .mm256_shuffle_epi8⟩,
  ⟨"arch/x86/intrin/swizzle.rs", 68, .ssse3, .mm_shuffle_epi8⟩,
  ⟨"arch/x86/intrin/swizzle.rs", 71, .never, .mm512_permutexvar_epi8⟩,
  ⟨"arch/x86/intrin/swizzle.rs", 74, .avx2, .mm256_shuffle_epi8⟩,
  ⟨"arch/x86/intrin/swizzle.rs", 77, .ssse3, .mm_shuffle_epi8⟩,
  ⟨"arch/x86/intrin/swizzle.rs", 80, .never, .mm512_permutexvar_epi8⟩,
  ⟨"arch/x86/intrin/swizzle.rs", 83, .avx2, .mm256_shuffle_epi8⟩,
  ⟨"arch/x86/intrin/swizzle.rs", 86, .ssse3, .mm_shuffle_epi8⟩,
  ⟨"arch/x86/intrin/swizzle.rs", 89, .never, .mm512_permutexvar_epi8⟩,
  ⟨"arch/x86/intrin/swizzle.rs", 92, .avx2, .mm256_shuffle_epi8⟩,
  ⟨"arch/x86/intrin/swizzle.rs", 95, .ssse3, .mm_shuffle_epi8⟩,
  ⟨"arch/x86/intrin/upcast.rs", 23, .sse41, .mm_cvtepu8_epi16⟩,
  ⟨"arch/x86/intrin/upcast.rs", 24, .sse41, .mm_cvtepu8_epi16⟩,
  ⟨"arch/x86/intrin/upcast.rs", 24, .sse41, .mm_shuffle_epi32⟩,
  ⟨"arch/x86/intrin/upcast.rs", 58, .sse41, .mm_cvtepi8_epi16⟩,
  ⟨"arch/x86/intrin/upcast.rs", 59, .sse41, .mm_cvtepi8_epi16⟩,
  ⟨"arch/x86/intrin/upcast.rs", 59, .sse41, .mm_shuffle_epi32⟩,
  ⟨"arch/x86/intrin/upcast.rs", 92, .sse41, .mm_cvtepu16_epi32⟩,
  ⟨"arch/x86/intrin/upcast.rs", 93, .sse41, .mm_cvtepu16_epi32⟩,
  ⟨"arch/x86/intrin/upcast.rs", 93, .sse41, .mm_shuffle_epi32⟩,
  ⟨"arch/x86/intrin/upcast.rs", 118, .sse41, .mm_cvtepi16_epi32⟩,
  ⟨"arch/x86/intrin/upcast.rs", 119, .sse41, .mm_cvtepi16_epi32⟩,
  ⟨"arch/x86/intrin/upcast.rs", 119, .sse41, .mm_shuffle_epi32⟩,
  ⟨"arch/x86/intrin/upcast.rs", 144, .avx2, .mm256_cvtepu8_epi16⟩,
  ⟨"arch/x86/intrin/upcast.rs", 144, .avx2, .mm256_castsi256_si128⟩,
  ⟨"arch/x86/intrin/upcast.rs", 145, .avx2, .mm256_cvtepu8_epi16⟩,
  ⟨"arch/x86/intrin/upcast.rs", 145, .avx2, .mm256_castsi256_si128⟩,
  ⟨"arch/x86/intrin/upcast.rs", 145, .avx2, .mm256_permute4x64_epi64⟩,
  ⟨"arch/x86/intrin/upcast.rs", 194, .avx2, .mm256_cvtepi8_epi16⟩,
  ⟨"arch/x86/intrin/upcast.rs", 196, .avx2, .mm256_castsi256_si128⟩,
  ⟨"arch/x86/intrin/upcast.rs", 198, .avx2, .mm256_cvtepi8_epi16⟩,
  ⟨"arch/x86/intrin/upcast.rs", 200, .avx2, .mm256_castsi256_si128⟩,
  ⟨"arch/x86/intrin/upcast.rs", 202, .avx2, .mm256_permute4x64_epi64⟩,
  ⟨"arch/x86/intrin/upcast.rs", 251, .avx2, .mm256_cvtepu16_epi32⟩,
  ⟨"arch/x86/intrin/upcast.rs", 251, .avx2, .mm256_castsi256_si128⟩,
  ⟨"arch/x86/intrin/upcast.rs", 252, .avx2, .mm256_cvtepu16_epi32⟩,
  ⟨"arch/x86/intrin/upcast.rs", 252, .avx2, .mm256_castsi256_si128⟩,
  ⟨"arch/x86/intrin/upcast.rs", 252, .avx2, .mm256_permute4x64_epi64⟩,
  ⟨"arch/x86/intrin/upcast.rs", 286, .avx2, .mm256_cvtepi16_epi32⟩,
  ⟨"arch/x86/intrin/upcast.rs", 288, .avx2, .mm256_castsi256_si128⟩,
  ⟨"arch/x86/intrin/upcast.rs", 290, .avx2, .mm256_cvtepi16_epi32⟩,
  ⟨"arch/x86/intrin/upcast.rs", 292, .avx2, .mm256_castsi256_si128⟩,
  ⟨"arch/x86/intrin/upcast.rs", 294, .avx2, .mm256_permute4x64_epi64⟩,
  ⟨"arch/x86/intrin/upcast.rs", 327, .sse2, .mm_cvtps_pd⟩,
  ⟨"arch/x86/intrin/upcast.rs", 327, .sse2, .mm_cvtps_pd⟩,
  ⟨"arch/x86/intrin/upcast.rs", 327, .sse2, .mm_shuffle_epi32⟩,
  ⟨"arch/x86/intrin/upcast.rs", 346, .sse2, .mm_cvtepi32_pd⟩,
  ⟨"arch/x86/intrin/upcast.rs", 346, .sse2, .mm_cvtepi32_pd⟩,
  ⟨"arch/x86/intrin/upcast.rs", 346, .sse2, .mm_shuffle_epi32⟩,
  ⟨"arch/x86/intrin/upcast.rs", 366, .sse41, .mm_cvtepi32_epi64⟩,
  ⟨"arch/x86/intrin/upcast.rs", 367, .sse41, .mm_cvtepi32_epi64⟩,
  ⟨"arch/x86/intrin/upcast.rs", 367, .sse41, .mm_shuffle_epi32⟩,
  ⟨"arch/x86/intrin/upcast.rs", 388, .sse41, .mm_cvtepu32_epi64⟩,
  ⟨"arch/x86/intrin/upcast.rs", 389, .sse41, .mm_cvtepu32_epi64⟩,
  ⟨"arch/x86/intrin/upcast.rs", 389, .sse41, .mm_shuffle_epi32⟩,
  ⟨"arch/x86/intrin/upcast.rs", 410, .avx2, .mm256_cvtps_pd⟩,
  ⟨"arch/x86/intrin/upcast.rs", 412, .avx2, .mm256_castsi256_si128⟩,
  ⟨"arch/x86/intrin/upcast.rs", 414, .avx2, .mm256_cvtps_pd⟩,
  ⟨"arch/x86/intrin/upcast.rs", 416, .avx2, .mm256_castsi256_si128⟩,
  ⟨"arch/x86/intrin/upcast.rs", 418, .avx2, .mm256_permute4x64_epi64⟩,
  ⟨"arch/x86/intrin/upcast.rs", 443, .avx2, .mm256_cvtepi32_pd⟩,
  ⟨"arch/x86/intrin/upcast.rs", 445, .avx2, .mm256_castsi256_si128⟩,
  ⟨"arch/x86/intrin/upcast.rs", 447, .avx2, .mm256_cvtepi32_pd⟩,
  ⟨"arch/x86/intrin/upcast.rs", 449, .avx2, .mm256_castsi256_si128⟩,
  ⟨"arch/x86/intrin/upcast.rs", 451, .avx2, .mm256_permute4x64_epi64⟩,
  ⟨"arch/x86/intrin/upcast.rs", 476, .avx2, .mm256_cvtepi32_epi64⟩,
  ⟨"arch/x86/intrin/upcast.rs", 478, .avx2, .mm256_castsi256_si128⟩,
  ⟨"arch/x86/intrin/upcast.rs", 480, .avx2, .mm256_cvtepi32_epi64⟩,
  ⟨"arch/x86/intrin/upcast.rs", 482, .avx2, .mm256_castsi256_si128⟩,
  ⟨"arch/x86/intrin/upcast.rs", 484, .avx2, .mm256_permute4x64_epi64⟩,
  ⟨"arch/x86/intrin/upcast.rs", 509, .avx2, .mm256_cvtepu32_epi64⟩,
  ⟨"arch/x86/intrin/upcast.rs", 509, .avx2, .mm256_castsi256_si128⟩,
  ⟨"arch/x86/intrin/upcast.rs", 510, .avx2, .mm256_cvtepu32_epi64⟩,
  ⟨"arch/x86/intrin/upcast.rs", 510, .avx2, .mm256_castsi256_si128⟩,
  ⟨"arch/x86/intrin/upcast.rs", 510, .avx2, .mm256_permute4x64_epi64⟩,
  ⟨"arch/x86/vec_patterns.rs", 59, .never, .mm512_mask_mov_epi8⟩,
  ⟨"arch/x86/vec_patterns.rs", 172, .avx2, .mm256_blendv_epi8⟩,
  ⟨"arch/x86/vec_patterns.rs", 253, .sse41, .mm_blendv_epi8⟩,
  ⟨"arch/x86/vec_patterns.rs", 318, .never, .mm512_mask_mov_epi8⟩,
  ⟨"arch/x86/vec_patterns.rs", 431, .avx2, .mm256_blendv_epi8⟩,
  ⟨"arch/x86/vec_patterns.rs", 512, .sse41, .mm_blendv_epi8⟩,
  ⟨"arch/x86/vec_patterns.rs", 577, .never, .mm512_mask_mov_epi8⟩,
  ⟨"arch/x86/vec_patterns.rs", 658, .avx2, .mm256_blendv_epi8⟩,
  ⟨"arch/x86/vec_patterns.rs", 723, .sse41, .mm_blendv_epi8⟩,
  ⟨"arch/x86/vec_patterns.rs", 780, .never, .mm512_mask_mov_epi8⟩,
  ⟨"arch/x86/vec_patterns.rs", 861, .avx2, .mm256_blendv_epi8⟩,
  ⟨"arch/x86/vec_patterns.rs", 926, .sse41, .mm_blendv_epi8⟩,
  ⟨"arch/x86/vec_patterns.rs", 983, .never, .mm512_mask_mov_epi8⟩,
  ⟨"arch/x86/vec_patterns.rs", 1048, .avx2, .mm256_blendv_epi8⟩,
  ⟨"arch/x86/vec_patterns.rs", 1105, .sse41, .mm_blendv_epi8⟩,
  ⟨"arch/x86/vec_patterns.rs", 1158, .never, .mm512_mask_mov_epi8⟩,
  ⟨"arch/x86/vec_patterns.rs", 1223, .avx2, .mm256_blendv_epi8⟩,
  ⟨"arch/x86/vec_patterns.rs", 1280, .sse41, .mm_blendv_epi8⟩,
  ⟨"arch/x86/vec_patterns.rs", 1333, .never, .mm512_mask_mov_epi8⟩,
  ⟨"arch/x86/vec_patterns.rs", 1398, .avx2, .mm256_blendv_epi8⟩,
  ⟨"arch/x86/vec_patterns.rs", 1455, .sse41, .mm_blendv_epi8⟩,
  ⟨"arch/x86/vec_patterns.rs", 1508, .never, .mm512_mask_mov_epi8⟩,
  ⟨"arch/x86/vec_patterns.rs", 1565, .avx2, .mm256_blendv_epi8⟩,
  ⟨"arch/x86/vec_patterns.rs", 1618, .sse41, .mm_blendv_epi8⟩,
  ⟨"arch/x86/vec_patterns.rs", 1669, .never, .mm512_mask_mov_epi8⟩,
  ⟨"arch/x86/vec_patterns.rs", 1726, .avx2, .mm256_blendv_epi8⟩,
  ⟨"arch/x86/vec_patterns.rs", 1779, .sse41, .mm_blendv_epi8⟩,
  ⟨"arch/x86/vec_patterns.rs", 1830, .never, .mm512_mask_mov_epi8⟩,
  ⟨"arch/x86/vec_patterns.rs", 1887, .avx2, .mm256_blendv_epi8⟩,
  ⟨"arch/x86/vec_patterns.rs", 1940, .sse41, .mm_blendv_epi8⟩
]

end Faster
