/-
Literal lane tables of the crate, extracted from the Rust sources by
`tools/gen_tables.py`. Do not edit by hand.
-/
namespace Faster

/-- One instantiation of a byte-shuffle macro: vector type, source line, bytes
per lane, lanes, control bytes of the shuffle, lane numbers of the fallback. -/
structure ShuffleRow where
  vec : String
  line : Nat
  size : Nat
  width : Nat
  ctl : List Nat
  idx : List Nat

/-- One instantiation of `impl_packed_merge!`: lane lists `$a`, `$b` of
`merge_halves` and `$na, $nb` of `merge_interleaved`. -/
structure MergeRow where
  vec : String
  line : Nat
  size : Nat
  width : Nat
  first : List Nat
  second : List Nat
  both : List Nat

/-- Lane lists given to `destride_two_polyfill!` and `destride_four_polyfill!`. -/
structure DestrideRow where
  vec : String
  line : Nat
  width : Nat
  two : List Nat
  four : List Nat

/-- Tables of `swap_bytes` (src/arch/x86/intrin/endian.rs) for the 128- and 256-bit types: `ctl` is the
byte shuffle of the SSSE3/AVX2 version, `idx` the lanes of the fallback. -/
def swapRows : List ShuffleRow := [
  { vec := "u8x32", line := 12, size := 1, width := 32,
    ctl := [0, 1, 2, 3, 4, 5, 6, 7, 8, 9, 10, 11, 12, 13, 14, 15, 16, 17, 18, 19, 20, 21, 22, 23, 24, 25, 26, 27, 28, 29, 30, 31],
    idx := [0, 1, 2, 3, 4, 5, 6, 7, 8, 9, 10, 11, 12, 13, 14, 15, 16, 17, 18, 19, 20, 21, 22, 23, 24, 25, 26, 27, 28, 29, 30, 31] },
  { vec := "u8x16", line := 15, size := 1, width := 16,
    ctl := [0, 1, 2, 3, 4, 5, 6, 7, 8, 9, 10, 11, 12, 13, 14, 15],
    idx := [0, 1, 2, 3, 4, 5, 6, 7, 8, 9, 10, 11, 12, 13, 14, 15] },
  { vec := "i8x32", line := 21, size := 1, width := 32,
    ctl := [0, 1, 2, 3, 4, 5, 6, 7, 8, 9, 10, 11, 12, 13, 14, 15, 16, 17, 18, 19, 20, 21, 22, 23, 24, 25, 26, 27, 28, 29, 30, 31],
    idx := [0, 1, 2, 3, 4, 5, 6, 7, 8, 9, 10, 11, 12, 13, 14, 15, 16, 17, 18, 19, 20, 21, 22, 23, 24, 25, 26, 27, 28, 29, 30, 31] },
  { vec := "i8x16", line := 24, size := 1, width := 16,
    ctl := [0, 1, 2, 3, 4, 5, 6, 7, 8, 9, 10, 11, 12, 13, 14, 15],
    idx := [0, 1, 2, 3, 4, 5, 6, 7, 8, 9, 10, 11, 12, 13, 14, 15] },
  { vec := "u16x16", line := 30, size := 2, width := 16,
    ctl := [1, 0, 3, 2, 5, 4, 7, 6, 9, 8, 11, 10, 13, 12, 15, 14, 17, 16, 19, 18, 21, 20, 23, 22, 25, 24, 27, 26, 29, 28, 31, 30],
    idx := [0, 1, 2, 3, 4, 5, 6, 7, 8, 9, 10, 11, 12, 13, 14, 15] },
  { vec := "u16x8", line := 33, size := 2, width := 8,
    ctl := [1, 0, 3, 2, 5, 4, 7, 6, 9, 8, 11, 10, 13, 12, 15, 14],
    idx := [0, 1, 2, 3, 4, 5, 6, 7] },
  { vec := "i16x16", line := 39, size := 2, width := 16,
    ctl := [1, 0, 3, 2, 5, 4, 7, 6, 9, 8, 11, 10, 13, 12, 15, 14, 17, 16, 19, 18, 21, 20, 23, 22, 25, 24, 27, 26, 29, 28, 31, 30],
    idx := [0, 1, 2, 3, 4, 5, 6, 7, 8, 9, 10, 11, 12, 13, 14, 15] },
  { vec := "i16x8", line := 42, size := 2, width := 8,
    ctl := [1, 0, 3, 2, 5, 4, 7, 6, 9, 8, 11, 10, 13, 12, 15, 14],
    idx := [0, 1, 2, 3, 4, 5, 6, 7] },
  { vec := "u32x8", line := 48, size := 4, width := 8,
    ctl := [3, 2, 1, 0, 7, 6, 5, 4, 11, 10, 9, 8, 15, 14, 13, 12, 19, 18, 17, 16, 23, 22, 21, 20, 27, 26, 25, 24, 31, 30, 29, 28],
    idx := [0, 1, 2, 3, 4, 5, 6, 7] },
  { vec := "u32x4", line := 51, size := 4, width := 4,
    ctl := [3, 2, 1, 0, 7, 6, 5, 4, 11, 10, 9, 8, 15, 14, 13, 12],
    idx := [0, 1, 2, 3] },
  { vec := "i32x8", line := 57, size := 4, width := 8,
    ctl := [3, 2, 1, 0, 7, 6, 5, 4, 11, 10, 9, 8, 15, 14, 13, 12, 19, 18, 17, 16, 23, 22, 21, 20, 27, 26, 25, 24, 31, 30, 29, 28],
    idx := [0, 1, 2, 3, 4, 5, 6, 7] },
  { vec := "i32x4", line := 60, size := 4, width := 4,
    ctl := [3, 2, 1, 0, 7, 6, 5, 4, 11, 10, 9, 8, 15, 14, 13, 12],
    idx := [0, 1, 2, 3] },
  { vec := "u64x4", line := 66, size := 8, width := 4,
    ctl := [7, 6, 5, 4, 3, 2, 1, 0, 15, 14, 13, 12, 11, 10, 9, 8, 23, 22, 21, 20, 19, 18, 17, 16, 31, 30, 29, 28, 27, 26, 25, 24],
    idx := [0, 1, 2, 3] },
  { vec := "u64x2", line := 69, size := 8, width := 2,
    ctl := [7, 6, 5, 4, 3, 2, 1, 0, 15, 14, 13, 12, 11, 10, 9, 8],
    idx := [0, 1] },
  { vec := "i64x4", line := 75, size := 8, width := 4,
    ctl := [7, 6, 5, 4, 3, 2, 1, 0, 15, 14, 13, 12, 11, 10, 9, 8, 23, 22, 21, 20, 19, 18, 17, 16, 31, 30, 29, 28, 27, 26, 25, 24],
    idx := [0, 1, 2, 3] },
  { vec := "i64x2", line := 78, size := 8, width := 2,
    ctl := [7, 6, 5, 4, 3, 2, 1, 0, 15, 14, 13, 12, 11, 10, 9, 8],
    idx := [0, 1] }
]

/-- Tables of `swap_bytes` (src/arch/x86/intrin/endian.rs) for the 512-bit types, whose optimized version
is never compiled ("avx512-butnotyet"). -/
def swapRows512 : List ShuffleRow := [
  { vec := "u8x64", line := 9, size := 1, width := 64,
    ctl := [0, 1, 2, 3, 4, 5, 6, 7, 8, 9, 10, 11, 12, 13, 14, 15, 16, 17, 18, 19, 20, 21, 22, 23, 24, 25, 26, 27, 28, 29, 30, 31, 32, 33, 34, 35, 36, 37, 38, 39, 40, 41, 42, 43, 44, 45, 46, 47, 48, 49, 50, 51, 52, 53, 54, 55, 56, 57, 58, 59, 60, 61, 62, 63],
    idx := [0, 1, 2, 3, 4, 5, 6, 7, 8, 9, 10, 11, 12, 13, 14, 15, 16, 17, 18, 19, 20, 21, 22, 23, 24, 25, 26, 27, 28, 29, 30, 31, 32, 33, 34, 35, 36, 37, 38, 39, 40, 41, 42, 43, 44, 45, 46, 47, 48, 49, 50, 51, 52, 53, 54, 55, 56, 57, 58, 59, 60, 61, 62, 63] },
  { vec := "i8x64", line := 18, size := 1, width := 64,
    ctl := [0, 1, 2, 3, 4, 5, 6, 7, 8, 9, 10, 11, 12, 13, 14, 15, 16, 17, 18, 19, 20, 21, 22, 23, 24, 25, 26, 27, 28, 29, 30, 31, 32, 33, 34, 35, 36, 37, 38, 39, 40, 41, 42, 43, 44, 45, 46, 47, 48, 49, 50, 51, 52, 53, 54, 55, 56, 57, 58, 59, 60, 61, 62, 63],
    idx := [0, 1, 2, 3, 4, 5, 6, 7, 8, 9, 10, 11, 12, 13, 14, 15, 16, 17, 18, 19, 20, 21, 22, 23, 24, 25, 26, 27, 28, 29, 30, 31, 32, 33, 34, 35, 36, 37, 38, 39, 40, 41, 42, 43, 44, 45, 46, 47, 48, 49, 50, 51, 52, 53, 54, 55, 56, 57, 58, 59, 60, 61, 62, 63] },
  { vec := "u16x32", line := 27, size := 2, width := 32,
    ctl := [1, 0, 3, 2, 5, 4, 7, 6, 9, 8, 11, 10, 13, 12, 15, 14, 17, 16, 19, 18, 21, 20, 23, 22, 25, 24, 27, 26, 29, 28, 31, 30, 33, 32, 35, 34, 37, 36, 39, 38, 41, 40, 43, 42, 45, 44, 47, 46, 49, 48, 51, 50, 53, 52, 55, 54, 57, 56, 59, 58, 61, 60, 63, 62],
    idx := [0, 1, 2, 3, 4, 5, 6, 7, 8, 9, 10, 11, 12, 13, 14, 15, 16, 17, 18, 19, 20, 21, 22, 23, 24, 25, 26, 27, 28, 29, 30, 31] },
  { vec := "i16x32", line := 36, size := 2, width := 32,
    ctl := [1, 0, 3, 2, 5, 4, 7, 6, 9, 8, 11, 10, 13, 12, 15, 14, 17, 16, 19, 18, 21, 20, 23, 22, 25, 24, 27, 26, 29, 28, 31, 30, 33, 32, 35, 34, 37, 36, 39, 38, 41, 40, 43, 42, 45, 44, 47, 46, 49, 48, 51, 50, 53, 52, 55, 54, 57, 56, 59, 58, 61, 60, 63, 62],
    idx := [0, 1, 2, 3, 4, 5, 6, 7, 8, 9, 10, 11, 12, 13, 14, 15, 16, 17, 18, 19, 20, 21, 22, 23, 24, 25, 26, 27, 28, 29, 30, 31] },
  { vec := "u32x16", line := 45, size := 4, width := 16,
    ctl := [3, 2, 1, 0, 7, 6, 5, 4, 11, 10, 9, 8, 15, 14, 13, 12, 19, 18, 17, 16, 23, 22, 21, 20, 27, 26, 25, 24, 31, 30, 29, 28, 35, 34, 33, 32, 39, 38, 37, 36, 43, 42, 41, 40, 47, 46, 45, 44, 51, 50, 49, 48, 55, 54, 53, 52, 59, 58, 57, 56, 63, 62, 61, 60],
    idx := [0, 1, 2, 3, 4, 5, 6, 7, 8, 9, 10, 11, 12, 13, 14, 15] },
  { vec := "i32x16", line := 54, size := 4, width := 16,
    ctl := [3, 2, 1, 0, 7, 6, 5, 4, 11, 10, 9, 8, 15, 14, 13, 12, 19, 18, 17, 16, 23, 22, 21, 20, 27, 26, 25, 24, 31, 30, 29, 28, 35, 34, 33, 32, 39, 38, 37, 36, 43, 42, 41, 40, 47, 46, 45, 44, 51, 50, 49, 48, 55, 54, 53, 52, 59, 58, 57, 56, 63, 62, 61, 60],
    idx := [0, 1, 2, 3, 4, 5, 6, 7, 8, 9, 10, 11, 12, 13, 14, 15] },
  { vec := "u64x8", line := 63, size := 8, width := 8,
    ctl := [7, 6, 5, 4, 3, 2, 1, 0, 15, 14, 13, 12, 11, 10, 9, 8, 23, 22, 21, 20, 19, 18, 17, 16, 31, 30, 29, 28, 27, 26, 25, 24, 39, 38, 37, 36, 35, 34, 33, 32, 47, 46, 45, 44, 43, 42, 41, 40, 55, 54, 53, 52, 51, 50, 49, 48, 63, 62, 61, 60, 59, 58, 57, 56],
    idx := [0, 1, 2, 3, 4, 5, 6, 7] },
  { vec := "i64x8", line := 72, size := 8, width := 8,
    ctl := [7, 6, 5, 4, 3, 2, 1, 0, 15, 14, 13, 12, 11, 10, 9, 8, 23, 22, 21, 20, 19, 18, 17, 16, 31, 30, 29, 28, 27, 26, 25, 24, 39, 38, 37, 36, 35, 34, 33, 32, 47, 46, 45, 44, 43, 42, 41, 40, 55, 54, 53, 52, 51, 50, 49, 48, 63, 62, 61, 60, 59, 58, 57, 56],
    idx := [0, 1, 2, 3, 4, 5, 6, 7] }
]

/-- Tables of `swap_bytes` (src/arch/unknown/intrin/endian.rs); only the fallback is compiled. -/
def swapRowsUnknown : List ShuffleRow := [
  { vec := "u8x16", line := 12, size := 1, width := 16,
    ctl := [0, 1, 2, 3, 4, 5, 6, 7, 8, 9, 10, 11, 12, 13, 14, 15],
    idx := [0, 1, 2, 3, 4, 5, 6, 7, 8, 9, 10, 11, 12, 13, 14, 15] },
  { vec := "i8x16", line := 15, size := 1, width := 16,
    ctl := [0, 1, 2, 3, 4, 5, 6, 7, 8, 9, 10, 11, 12, 13, 14, 15],
    idx := [0, 1, 2, 3, 4, 5, 6, 7, 8, 9, 10, 11, 12, 13, 14, 15] },
  { vec := "u16x8", line := 18, size := 2, width := 8,
    ctl := [1, 0, 3, 2, 5, 4, 7, 6, 9, 8, 11, 10, 13, 12, 15, 14],
    idx := [0, 1, 2, 3, 4, 5, 6, 7] },
  { vec := "i16x8", line := 21, size := 2, width := 8,
    ctl := [1, 0, 3, 2, 5, 4, 7, 6, 9, 8, 11, 10, 13, 12, 15, 14],
    idx := [0, 1, 2, 3, 4, 5, 6, 7] },
  { vec := "u32x4", line := 24, size := 4, width := 4,
    ctl := [3, 2, 1, 0, 7, 6, 5, 4, 11, 10, 9, 8, 15, 14, 13, 12],
    idx := [0, 1, 2, 3] },
  { vec := "i32x4", line := 27, size := 4, width := 4,
    ctl := [3, 2, 1, 0, 7, 6, 5, 4, 11, 10, 9, 8, 15, 14, 13, 12],
    idx := [0, 1, 2, 3] },
  { vec := "u64x2", line := 30, size := 8, width := 2,
    ctl := [7, 6, 5, 4, 3, 2, 1, 0, 15, 14, 13, 12, 11, 10, 9, 8],
    idx := [0, 1] },
  { vec := "i64x2", line := 33, size := 8, width := 2,
    ctl := [7, 6, 5, 4, 3, 2, 1, 0, 15, 14, 13, 12, 11, 10, 9, 8],
    idx := [0, 1] }
]

/-- Tables of `flip` (src/arch/x86/intrin/swizzle.rs) for the 128- and 256-bit types: `ctl` is the
byte shuffle of the SSSE3/AVX2 version, `idx` the lanes of the fallback. -/
def flipRows : List ShuffleRow := [
  { vec := "u8x32", line := 11, size := 1, width := 32,
    ctl := [1, 0, 3, 2, 5, 4, 7, 6, 9, 8, 11, 10, 13, 12, 15, 14, 17, 16, 19, 18, 21, 20, 23, 22, 25, 24, 27, 26, 29, 28, 31, 30],
    idx := [0, 1, 2, 3, 4, 5, 6, 7, 8, 9, 10, 11, 12, 13, 14, 15, 16, 17, 18, 19, 20, 21, 22, 23, 24, 25, 26, 27, 28, 29, 30, 31] },
  { vec := "u8x16", line := 14, size := 1, width := 16,
    ctl := [1, 0, 3, 2, 5, 4, 7, 6, 9, 8, 11, 10, 13, 12, 15, 14],
    idx := [0, 1, 2, 3, 4, 5, 6, 7, 8, 9, 10, 11, 12, 13, 14, 15] },
  { vec := "i8x32", line := 20, size := 1, width := 32,
    ctl := [1, 0, 3, 2, 5, 4, 7, 6, 9, 8, 11, 10, 13, 12, 15, 14, 17, 16, 19, 18, 21, 20, 23, 22, 25, 24, 27, 26, 29, 28, 31, 30],
    idx := [0, 1, 2, 3, 4, 5, 6, 7, 8, 9, 10, 11, 12, 13, 14, 15, 16, 17, 18, 19, 20, 21, 22, 23, 24, 25, 26, 27, 28, 29, 30, 31] },
  { vec := "i8x16", line := 23, size := 1, width := 16,
    ctl := [1, 0, 3, 2, 5, 4, 7, 6, 9, 8, 11, 10, 13, 12, 15, 14],
    idx := [0, 1, 2, 3, 4, 5, 6, 7, 8, 9, 10, 11, 12, 13, 14, 15] },
  { vec := "u16x16", line := 29, size := 2, width := 16,
    ctl := [2, 3, 0, 1, 6, 7, 4, 5, 10, 11, 8, 9, 14, 15, 12, 13, 18, 19, 16, 17, 22, 23, 20, 21, 26, 27, 24, 25, 30, 31, 28, 29],
    idx := [0, 1, 2, 3, 4, 5, 6, 7, 8, 9, 10, 11, 12, 13, 14, 15] },
  { vec := "u16x8", line := 32, size := 2, width := 8,
    ctl := [2, 3, 0, 1, 6, 7, 4, 5, 10, 11, 8, 9, 14, 15, 12, 13],
    idx := [0, 1, 2, 3, 4, 5, 6, 7] },
  { vec := "i16x16", line := 38, size := 2, width := 16,
    ctl := [2, 3, 0, 1, 6, 7, 4, 5, 10, 11, 8, 9, 14, 15, 12, 13, 18, 19, 16, 17, 22, 23, 20, 21, 26, 27, 24, 25, 30, 31, 28, 29],
    idx := [0, 1, 2, 3, 4, 5, 6, 7, 8, 9, 10, 11, 12, 13, 14, 15] },
  { vec := "i16x8", line := 41, size := 2, width := 8,
    ctl := [2, 3, 0, 1, 6, 7, 4, 5, 10, 11, 8, 9, 14, 15, 12, 13],
    idx := [0, 1, 2, 3, 4, 5, 6, 7] },
  { vec := "u32x8", line := 47, size := 4, width := 8,
    ctl := [4, 5, 6, 7, 0, 1, 2, 3, 12, 13, 14, 15, 8, 9, 10, 11, 20, 21, 22, 23, 16, 17, 18, 19, 28, 29, 30, 31, 24, 25, 26, 27],
    idx := [0, 1, 2, 3, 4, 5, 6, 7] },
  { vec := "u32x4", line := 50, size := 4, width := 4,
    ctl := [4, 5, 6, 7, 0, 1, 2, 3, 12, 13, 14, 15, 8, 9, 10, 11],
    idx := [0, 1, 2, 3] },
  { vec := "i32x8", line := 56, size := 4, width := 8,
    ctl := [4, 5, 6, 7, 0, 1, 2, 3, 12, 13, 14, 15, 8, 9, 10, 11, 20, 21, 22, 23, 16, 17, 18, 19, 28, 29, 30, 31, 24, 25, 26, 27],
    idx := [0, 1, 2, 3, 4, 5, 6, 7] },
  { vec := "i32x4", line := 59, size := 4, width := 4,
    ctl := [4, 5, 6, 7, 0, 1, 2, 3, 12, 13, 14, 15, 8, 9, 10, 11],
    idx := [0, 1, 2, 3] },
  { vec := "f32x8", line := 65, size := 4, width := 8,
    ctl := [4, 5, 6, 7, 0, 1, 2, 3, 12, 13, 14, 15, 8, 9, 10, 11, 20, 21, 22, 23, 16, 17, 18, 19, 28, 29, 30, 31, 24, 25, 26, 27],
    idx := [0, 1, 2, 3, 4, 5, 6, 7] },
  { vec := "f32x4", line := 68, size := 4, width := 4,
    ctl := [4, 5, 6, 7, 0, 1, 2, 3, 12, 13, 14, 15, 8, 9, 10, 11],
    idx := [0, 1, 2, 3] },
  { vec := "u64x4", line := 74, size := 8, width := 4,
    ctl := [8, 9, 10, 11, 12, 13, 14, 15, 0, 1, 2, 3, 4, 5, 6, 7, 24, 25, 26, 27, 28, 29, 30, 31, 16, 17, 18, 19, 20, 21, 22, 23],
    idx := [0, 1, 2, 3] },
  { vec := "u64x2", line := 77, size := 8, width := 2,
    ctl := [8, 9, 10, 11, 12, 13, 14, 15, 0, 1, 2, 3, 4, 5, 6, 7],
    idx := [0, 1] },
  { vec := "i64x4", line := 83, size := 8, width := 4,
    ctl := [8, 9, 10, 11, 12, 13, 14, 15, 0, 1, 2, 3, 4, 5, 6, 7, 24, 25, 26, 27, 28, 29, 30, 31, 16, 17, 18, 19, 20, 21, 22, 23],
    idx := [0, 1, 2, 3] },
  { vec := "i64x2", line := 86, size := 8, width := 2,
    ctl := [8, 9, 10, 11, 12, 13, 14, 15, 0, 1, 2, 3, 4, 5, 6, 7],
    idx := [0, 1] },
  { vec := "f64x4", line := 92, size := 8, width := 4,
    ctl := [8, 9, 10, 11, 12, 13, 14, 15, 0, 1, 2, 3, 4, 5, 6, 7, 24, 25, 26, 27, 28, 29, 30, 31, 16, 17, 18, 19, 20, 21, 22, 23],
    idx := [0, 1, 2, 3] },
  { vec := "f64x2", line := 95, size := 8, width := 2,
    ctl := [8, 9, 10, 11, 12, 13, 14, 15, 0, 1, 2, 3, 4, 5, 6, 7],
    idx := [0, 1] }
]

/-- Tables of `flip` (src/arch/x86/intrin/swizzle.rs) for the 512-bit types, whose optimized version
is never compiled ("avx512-butnotyet"). -/
def flipRows512 : List ShuffleRow := [
  { vec := "u8x64", line := 8, size := 1, width := 64,
    ctl := [1, 0, 3, 2, 5, 4, 7, 6, 9, 8, 11, 10, 13, 12, 15, 14, 17, 16, 19, 18, 21, 20, 23, 22, 25, 24, 27, 26, 29, 28, 31, 30, 33, 32, 35, 34, 37, 36, 39, 38, 41, 40, 43, 42, 45, 44, 47, 46, 49, 48, 51, 50, 53, 52, 55, 54, 57, 56, 59, 58, 61, 60, 63, 62],
    idx := [0, 1, 2, 3, 4, 5, 6, 7, 8, 9, 10, 11, 12, 13, 14, 15, 16, 17, 18, 19, 20, 21, 22, 23, 24, 25, 26, 27, 28, 29, 30, 31, 32, 33, 34, 35, 36, 37, 38, 39, 40, 41, 42, 43, 44, 45, 46, 47, 48, 49, 50, 51, 52, 53, 54, 55, 56, 57, 58, 59, 60, 61, 62, 63] },
  { vec := "i8x64", line := 17, size := 1, width := 64,
    ctl := [1, 0, 3, 2, 5, 4, 7, 6, 9, 8, 11, 10, 13, 12, 15, 14, 17, 16, 19, 18, 21, 20, 23, 22, 25, 24, 27, 26, 29, 28, 31, 30, 33, 32, 35, 34, 37, 36, 39, 38, 41, 40, 43, 42, 45, 44, 47, 46, 49, 48, 51, 50, 53, 52, 55, 54, 57, 56, 59, 58, 61, 60, 63, 62],
    idx := [0, 1, 2, 3, 4, 5, 6, 7, 8, 9, 10, 11, 12, 13, 14, 15, 16, 17, 18, 19, 20, 21, 22, 23, 24, 25, 26, 27, 28, 29, 30, 31, 32, 33, 34, 35, 36, 37, 38, 39, 40, 41, 42, 43, 44, 45, 46, 47, 48, 49, 50, 51, 52, 53, 54, 55, 56, 57, 58, 59, 60, 61, 62, 63] },
  { vec := "u16x32", line := 26, size := 2, width := 32,
    ctl := [2, 3, 0, 1, 6, 7, 4, 5, 10, 11, 8, 9, 14, 15, 12, 13, 18, 19, 16, 17, 22, 23, 20, 21, 26, 27, 24, 25, 30, 31, 28, 29, 34, 35, 32, 33, 38, 39, 36, 37, 42, 43, 40, 41, 46, 47, 44, 45, 50, 51, 48, 49, 54, 55, 52, 53, 58, 59, 56, 57, 62, 63, 60, 61],
    idx := [0, 1, 2, 3, 4, 5, 6, 7, 8, 9, 10, 11, 12, 13, 14, 15, 16, 17, 18, 19, 20, 21, 22, 23, 24, 25, 26, 27, 28, 29, 30, 31] },
  { vec := "i16x32", line := 35, size := 2, width := 32,
    ctl := [2, 3, 0, 1, 6, 7, 4, 5, 10, 11, 8, 9, 14, 15, 12, 13, 18, 19, 16, 17, 22, 23, 20, 21, 26, 27, 24, 25, 30, 31, 28, 29, 34, 35, 32, 33, 38, 39, 36, 37, 42, 43, 40, 41, 46, 47, 44, 45, 50, 51, 48, 49, 54, 55, 52, 53, 58, 59, 56, 57, 62, 63, 60, 61],
    idx := [0, 1, 2, 3, 4, 5, 6, 7, 8, 9, 10, 11, 12, 13, 14, 15, 16, 17, 18, 19, 20, 21, 22, 23, 24, 25, 26, 27, 28, 29, 30, 31] },
  { vec := "u32x16", line := 44, size := 4, width := 16,
    ctl := [4, 5, 6, 7, 0, 1, 2, 3, 12, 13, 14, 15, 8, 9, 10, 11, 20, 21, 22, 23, 16, 17, 18, 19, 28, 29, 30, 31, 24, 25, 26, 27, 36, 37, 38, 39, 32, 33, 34, 35, 44, 45, 46, 47, 40, 41, 42, 43, 52, 53, 54, 55, 48, 49, 50, 51, 60, 61, 62, 63, 56, 57, 58, 59],
    idx := [0, 1, 2, 3, 4, 5, 6, 7, 8, 9, 10, 11, 12, 13, 14, 15] },
  { vec := "i32x16", line := 53, size := 4, width := 16,
    ctl := [4, 5, 6, 7, 0, 1, 2, 3, 12, 13, 14, 15, 8, 9, 10, 11, 20, 21, 22, 23, 16, 17, 18, 19, 28, 29, 30, 31, 24, 25, 26, 27, 36, 37, 38, 39, 32, 33, 34, 35, 44, 45, 46, 47, 40, 41, 42, 43, 52, 53, 54, 55, 48, 49, 50, 51, 60, 61, 62, 63, 56, 57, 58, 59],
    idx := [0, 1, 2, 3, 4, 5, 6, 7, 8, 9, 10, 11, 12, 13, 14, 15] },
  { vec := "f32x16", line := 62, size := 4, width := 16,
    ctl := [4, 5, 6, 7, 0, 1, 2, 3, 12, 13, 14, 15, 8, 9, 10, 11, 20, 21, 22, 23, 16, 17, 18, 19, 28, 29, 30, 31, 24, 25, 26, 27, 36, 37, 38, 39, 32, 33, 34, 35, 44, 45, 46, 47, 40, 41, 42, 43, 52, 53, 54, 55, 48, 49, 50, 51, 60, 61, 62, 63, 56, 57, 58, 59],
    idx := [0, 1, 2, 3, 4, 5, 6, 7, 8, 9, 10, 11, 12, 13, 14, 15] },
  { vec := "u64x8", line := 71, size := 8, width := 8,
    ctl := [8, 9, 10, 11, 12, 13, 14, 15, 0, 1, 2, 3, 4, 5, 6, 7, 24, 25, 26, 27, 28, 29, 30, 31, 16, 17, 18, 19, 20, 21, 22, 23, 40, 41, 42, 43, 44, 45, 46, 47, 32, 33, 34, 35, 36, 37, 38, 39, 56, 57, 58, 59, 60, 61, 62, 63, 48, 49, 50, 51, 52, 53, 54, 55],
    idx := [0, 1, 2, 3, 4, 5, 6, 7] },
  { vec := "i64x8", line := 80, size := 8, width := 8,
    ctl := [8, 9, 10, 11, 12, 13, 14, 15, 0, 1, 2, 3, 4, 5, 6, 7, 24, 25, 26, 27, 28, 29, 30, 31, 16, 17, 18, 19, 20, 21, 22, 23, 40, 41, 42, 43, 44, 45, 46, 47, 32, 33, 34, 35, 36, 37, 38, 39, 56, 57, 58, 59, 60, 61, 62, 63, 48, 49, 50, 51, 52, 53, 54, 55],
    idx := [0, 1, 2, 3, 4, 5, 6, 7] },
  { vec := "f64x8", line := 89, size := 8, width := 8,
    ctl := [8, 9, 10, 11, 12, 13, 14, 15, 0, 1, 2, 3, 4, 5, 6, 7, 24, 25, 26, 27, 28, 29, 30, 31, 16, 17, 18, 19, 20, 21, 22, 23, 40, 41, 42, 43, 44, 45, 46, 47, 32, 33, 34, 35, 36, 37, 38, 39, 56, 57, 58, 59, 60, 61, 62, 63, 48, 49, 50, 51, 52, 53, 54, 55],
    idx := [0, 1, 2, 3, 4, 5, 6, 7] }
]

/-- Lane lists of the merges (src/arch/x86/intrin/merge.rs). -/
def mergeRows : List MergeRow := [
  { vec := "u8x16", line := 12, size := 1, width := 16,
    first := [0, 1, 2, 3, 4, 5, 6, 7],
    second := [8, 9, 10, 11, 12, 13, 14, 15],
    both := [0, 1, 2, 3, 4, 5, 6, 7, 8, 9, 10, 11, 12, 13, 14, 15] },
  { vec := "u8x32", line := 13, size := 1, width := 32,
    first := [0, 1, 2, 3, 4, 5, 6, 7, 8, 9, 10, 11, 12, 13, 14, 15],
    second := [16, 17, 18, 19, 20, 21, 22, 23, 24, 25, 26, 27, 28, 29, 30, 31],
    both := [0, 1, 2, 3, 4, 5, 6, 7, 8, 9, 10, 11, 12, 13, 14, 15, 16, 17, 18, 19, 20, 21, 22, 23, 24, 25, 26, 27, 28, 29, 30, 31] },
  { vec := "u8x64", line := 14, size := 1, width := 64,
    first := [0, 1, 2, 3, 4, 5, 6, 7, 8, 9, 10, 11, 12, 13, 14, 15, 16, 17, 18, 19, 20, 21, 22, 23, 24, 25, 26, 27, 28, 29, 30, 31],
    second := [32, 33, 34, 35, 36, 37, 38, 39, 40, 41, 42, 43, 44, 45, 46, 47, 48, 49, 50, 51, 52, 53, 54, 55, 56, 57, 58, 59, 60, 61, 62, 63],
    both := [0, 1, 2, 3, 4, 5, 6, 7, 8, 9, 10, 11, 12, 13, 14, 15, 16, 17, 18, 19, 20, 21, 22, 23, 24, 25, 26, 27, 28, 29, 30, 31, 32, 33, 34, 35, 36, 37, 38, 39, 40, 41, 42, 43, 44, 45, 46, 47, 48, 49, 50, 51, 52, 53, 54, 55, 56, 57, 58, 59, 60, 61, 62, 63] },
  { vec := "u16x8", line := 16, size := 2, width := 8,
    first := [0, 1, 2, 3],
    second := [4, 5, 6, 7],
    both := [0, 1, 2, 3, 4, 5, 6, 7] },
  { vec := "u16x16", line := 17, size := 2, width := 16,
    first := [0, 1, 2, 3, 4, 5, 6, 7],
    second := [8, 9, 10, 11, 12, 13, 14, 15],
    both := [0, 1, 2, 3, 4, 5, 6, 7, 8, 9, 10, 11, 12, 13, 14, 15] },
  { vec := "u16x32", line := 18, size := 2, width := 32,
    first := [0, 1, 2, 3, 4, 5, 6, 7, 8, 9, 10, 11, 12, 13, 14, 15],
    second := [16, 17, 18, 19, 20, 21, 22, 23, 24, 25, 26, 27, 28, 29, 30, 31],
    both := [0, 1, 2, 3, 4, 5, 6, 7, 8, 9, 10, 11, 12, 13, 14, 15, 16, 17, 18, 19, 20, 21, 22, 23, 24, 25, 26, 27, 28, 29, 30, 31] },
  { vec := "u32x4", line := 20, size := 4, width := 4,
    first := [0, 1],
    second := [2, 3],
    both := [0, 1, 2, 3] },
  { vec := "u32x8", line := 21, size := 4, width := 8,
    first := [0, 1, 2, 3],
    second := [4, 5, 6, 7],
    both := [0, 1, 2, 3, 4, 5, 6, 7] },
  { vec := "u32x16", line := 22, size := 4, width := 16,
    first := [0, 1, 2, 3, 4, 5, 6, 7],
    second := [8, 9, 10, 11, 12, 13, 14, 15],
    both := [0, 1, 2, 3, 4, 5, 6, 7, 8, 9, 10, 11, 12, 13, 14, 15] },
  { vec := "u64x2", line := 24, size := 8, width := 2,
    first := [0],
    second := [1],
    both := [0, 1] },
  { vec := "u64x4", line := 25, size := 8, width := 4,
    first := [0, 1],
    second := [2, 3],
    both := [0, 1, 2, 3] },
  { vec := "u64x8", line := 26, size := 8, width := 8,
    first := [0, 1, 2, 3],
    second := [4, 5, 6, 7],
    both := [0, 1, 2, 3, 4, 5, 6, 7] },
  { vec := "i8x16", line := 28, size := 1, width := 16,
    first := [0, 1, 2, 3, 4, 5, 6, 7],
    second := [8, 9, 10, 11, 12, 13, 14, 15],
    both := [0, 1, 2, 3, 4, 5, 6, 7, 8, 9, 10, 11, 12, 13, 14, 15] },
  { vec := "i8x32", line := 29, size := 1, width := 32,
    first := [0, 1, 2, 3, 4, 5, 6, 7, 8, 9, 10, 11, 12, 13, 14, 15],
    second := [16, 17, 18, 19, 20, 21, 22, 23, 24, 25, 26, 27, 28, 29, 30, 31],
    both := [0, 1, 2, 3, 4, 5, 6, 7, 8, 9, 10, 11, 12, 13, 14, 15, 16, 17, 18, 19, 20, 21, 22, 23, 24, 25, 26, 27, 28, 29, 30, 31] },
  { vec := "i8x64", line := 30, size := 1, width := 64,
    first := [0, 1, 2, 3, 4, 5, 6, 7, 8, 9, 10, 11, 12, 13, 14, 15, 16, 17, 18, 19, 20, 21, 22, 23, 24, 25, 26, 27, 28, 29, 30, 31],
    second := [32, 33, 34, 35, 36, 37, 38, 39, 40, 41, 42, 43, 44, 45, 46, 47, 48, 49, 50, 51, 52, 53, 54, 55, 56, 57, 58, 59, 60, 61, 62, 63],
    both := [0, 1, 2, 3, 4, 5, 6, 7, 8, 9, 10, 11, 12, 13, 14, 15, 16, 17, 18, 19, 20, 21, 22, 23, 24, 25, 26, 27, 28, 29, 30, 31, 32, 33, 34, 35, 36, 37, 38, 39, 40, 41, 42, 43, 44, 45, 46, 47, 48, 49, 50, 51, 52, 53, 54, 55, 56, 57, 58, 59, 60, 61, 62, 63] },
  { vec := "i16x8", line := 32, size := 2, width := 8,
    first := [0, 1, 2, 3],
    second := [4, 5, 6, 7],
    both := [0, 1, 2, 3, 4, 5, 6, 7] },
  { vec := "i16x16", line := 33, size := 2, width := 16,
    first := [0, 1, 2, 3, 4, 5, 6, 7],
    second := [8, 9, 10, 11, 12, 13, 14, 15],
    both := [0, 1, 2, 3, 4, 5, 6, 7, 8, 9, 10, 11, 12, 13, 14, 15] },
  { vec := "i16x32", line := 34, size := 2, width := 32,
    first := [0, 1, 2, 3, 4, 5, 6, 7, 8, 9, 10, 11, 12, 13, 14, 15],
    second := [16, 17, 18, 19, 20, 21, 22, 23, 24, 25, 26, 27, 28, 29, 30, 31],
    both := [0, 1, 2, 3, 4, 5, 6, 7, 8, 9, 10, 11, 12, 13, 14, 15, 16, 17, 18, 19, 20, 21, 22, 23, 24, 25, 26, 27, 28, 29, 30, 31] },
  { vec := "i32x4", line := 36, size := 4, width := 4,
    first := [0, 1],
    second := [2, 3],
    both := [0, 1, 2, 3] },
  { vec := "i32x8", line := 37, size := 4, width := 8,
    first := [0, 1, 2, 3],
    second := [4, 5, 6, 7],
    both := [0, 1, 2, 3, 4, 5, 6, 7] },
  { vec := "i32x16", line := 38, size := 4, width := 16,
    first := [0, 1, 2, 3, 4, 5, 6, 7],
    second := [8, 9, 10, 11, 12, 13, 14, 15],
    both := [0, 1, 2, 3, 4, 5, 6, 7, 8, 9, 10, 11, 12, 13, 14, 15] },
  { vec := "i64x2", line := 40, size := 8, width := 2,
    first := [0],
    second := [1],
    both := [0, 1] },
  { vec := "i64x4", line := 41, size := 8, width := 4,
    first := [0, 1],
    second := [2, 3],
    both := [0, 1, 2, 3] },
  { vec := "i64x8", line := 42, size := 8, width := 8,
    first := [0, 1, 2, 3],
    second := [4, 5, 6, 7],
    both := [0, 1, 2, 3, 4, 5, 6, 7] },
  { vec := "f32x4", line := 44, size := 4, width := 4,
    first := [0, 1],
    second := [2, 3],
    both := [0, 1, 2, 3] },
  { vec := "f32x8", line := 45, size := 4, width := 8,
    first := [0, 1, 2, 3],
    second := [4, 5, 6, 7],
    both := [0, 1, 2, 3, 4, 5, 6, 7] },
  { vec := "f32x16", line := 46, size := 4, width := 16,
    first := [0, 1, 2, 3, 4, 5, 6, 7],
    second := [8, 9, 10, 11, 12, 13, 14, 15],
    both := [0, 1, 2, 3, 4, 5, 6, 7, 8, 9, 10, 11, 12, 13, 14, 15] },
  { vec := "f64x2", line := 48, size := 8, width := 2,
    first := [0],
    second := [1],
    both := [0, 1] },
  { vec := "f64x4", line := 49, size := 8, width := 4,
    first := [0, 1],
    second := [2, 3],
    both := [0, 1, 2, 3] },
  { vec := "f64x8", line := 50, size := 8, width := 8,
    first := [0, 1, 2, 3],
    second := [4, 5, 6, 7],
    both := [0, 1, 2, 3, 4, 5, 6, 7] }
]

/-- Lane lists of the merges (src/arch/unknown/intrin/merge.rs). -/
def mergeRowsUnknown : List MergeRow := [
  { vec := "u8x16", line := 13, size := 1, width := 16,
    first := [0, 1, 2, 3, 4, 5, 6, 7],
    second := [8, 9, 10, 11, 12, 13, 14, 15],
    both := [0, 1, 2, 3, 4, 5, 6, 7, 8, 9, 10, 11, 12, 13, 14, 15] },
  { vec := "u16x8", line := 14, size := 2, width := 8,
    first := [0, 1, 2, 3],
    second := [4, 5, 6, 7],
    both := [0, 1, 2, 3, 4, 5, 6, 7] },
  { vec := "u32x4", line := 15, size := 4, width := 4,
    first := [0, 1],
    second := [2, 3],
    both := [0, 1, 2, 3] },
  { vec := "u64x2", line := 16, size := 8, width := 2,
    first := [0],
    second := [1],
    both := [0, 1] },
  { vec := "i8x16", line := 17, size := 1, width := 16,
    first := [0, 1, 2, 3, 4, 5, 6, 7],
    second := [8, 9, 10, 11, 12, 13, 14, 15],
    both := [0, 1, 2, 3, 4, 5, 6, 7, 8, 9, 10, 11, 12, 13, 14, 15] },
  { vec := "i16x8", line := 18, size := 2, width := 8,
    first := [0, 1, 2, 3],
    second := [4, 5, 6, 7],
    both := [0, 1, 2, 3, 4, 5, 6, 7] },
  { vec := "i32x4", line := 19, size := 4, width := 4,
    first := [0, 1],
    second := [2, 3],
    both := [0, 1, 2, 3] },
  { vec := "i64x2", line := 20, size := 8, width := 2,
    first := [0],
    second := [1],
    both := [0, 1] },
  { vec := "f32x4", line := 21, size := 4, width := 4,
    first := [0, 1],
    second := [2, 3],
    both := [0, 1, 2, 3] },
  { vec := "f64x2", line := 22, size := 8, width := 2,
    first := [0],
    second := [1],
    both := [0, 1] }
]

/-- Lane lists of the destride polyfills (src/arch/x86/intrin/destride.rs); the rows of `impl_destride!`
pass every index to `destride_two` and every other one to `destride_four`. -/
def destrideRows : List DestrideRow := [
  { vec := "u8x16", line := 10, width := 16, two := [0, 2, 4, 6, 8, 10, 12, 14], four := [0, 4, 8, 12] },
  { vec := "u8x32", line := 38, width := 32, two := [0, 2, 4, 6, 8, 10, 12, 14, 16, 18, 20, 22, 24, 26, 28, 30], four := [0, 4, 8, 12, 16, 20, 24, 28] },
  { vec := "i8x16", line := 70, width := 16, two := [0, 2, 4, 6, 8, 10, 12, 14], four := [0, 4, 8, 12] },
  { vec := "i8x32", line := 98, width := 32, two := [0, 2, 4, 6, 8, 10, 12, 14, 16, 18, 20, 22, 24, 26, 28, 30], four := [0, 4, 8, 12, 16, 20, 24, 28] },
  { vec := "u16x16", line := 148, width := 16, two := [0, 2, 4, 6, 8, 10, 12, 14], four := [0, 4, 8, 12] },
  { vec := "u16x8", line := 149, width := 8, two := [0, 2, 4, 6], four := [0, 4] },
  { vec := "i16x16", line := 150, width := 16, two := [0, 2, 4, 6, 8, 10, 12, 14], four := [0, 4, 8, 12] },
  { vec := "i16x8", line := 151, width := 8, two := [0, 2, 4, 6], four := [0, 4] },
  { vec := "u32x8", line := 153, width := 8, two := [0, 2, 4, 6], four := [0, 4] },
  { vec := "u32x4", line := 154, width := 4, two := [0, 2], four := [0] },
  { vec := "i32x8", line := 155, width := 8, two := [0, 2, 4, 6], four := [0, 4] },
  { vec := "i32x4", line := 156, width := 4, two := [0, 2], four := [0] }
]

/-- Lane lists of the destride polyfills (src/arch/unknown/intrin/destride.rs); the rows of `impl_destride!`
pass every index to `destride_two` and every other one to `destride_four`. -/
def destrideRowsUnknown : List DestrideRow := [
  { vec := "u8x16", line := 11, width := 16, two := [0, 2, 4, 6, 8, 10, 12, 14], four := [0, 4, 8, 12] },
  { vec := "u8x32", line := 23, width := 32, two := [0, 2, 4, 6, 8, 10, 12, 14, 16, 18, 20, 22, 24, 26, 28, 30], four := [0, 4, 8, 12, 16, 20, 24, 28] },
  { vec := "i8x16", line := 35, width := 16, two := [0, 2, 4, 6, 8, 10, 12, 14], four := [0, 4, 8, 12] },
  { vec := "i8x32", line := 47, width := 32, two := [0, 2, 4, 6, 8, 10, 12, 14, 16, 18, 20, 22, 24, 26, 28, 30], four := [0, 4, 8, 12, 16, 20, 24, 28] },
  { vec := "u16x16", line := 75, width := 16, two := [0, 2, 4, 6, 8, 10, 12, 14], four := [0, 4, 8, 12] },
  { vec := "u16x8", line := 76, width := 8, two := [0, 2, 4, 6], four := [0, 4] },
  { vec := "i16x16", line := 77, width := 16, two := [0, 2, 4, 6, 8, 10, 12, 14], four := [0, 4, 8, 12] },
  { vec := "i16x8", line := 78, width := 8, two := [0, 2, 4, 6], four := [0, 4] },
  { vec := "u32x8", line := 80, width := 8, two := [0, 2, 4, 6], four := [0, 4] },
  { vec := "u32x4", line := 81, width := 4, two := [0, 2], four := [0] },
  { vec := "i32x8", line := 82, width := 8, two := [0, 2, 4, 6], four := [0, 4] },
  { vec := "i32x4", line := 83, width := 4, two := [0, 2], four := [0] }
]

end Faster
