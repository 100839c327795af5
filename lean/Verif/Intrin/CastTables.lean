import Verif.Intrin.ArithTables
/-
Instances of `Abs`, `Upcast` and `Downcast`, extracted from the Rust sources by
`tools/gen_tables.py`. Do not edit by hand.
-/
namespace Faster

/-- One `impl Abs`: vector type, source line, lane kind, bytes per lane, lanes;
gate and instruction of the optimized version if there is one, the constant the
float versions mask with; lanes of the fallback
(`transmute(self.extract(k).overflowing_abs().0)` or `self.extract(k).abs()`). -/
structure AbsRow where
  vec : String
  line : Nat
  kind : Kind
  size : Nat
  width : Nat
  gate : Option Gate
  mm : Option Instr
  mask : Nat
  idx : List Nat

/-- One `impl Upcast<to> for vec`: source line, lane kinds, bytes per source lane,
source lanes; gate and conversion instruction of the optimized version, if there
is one (128 bits: `(mm(self), mm(_mm_shuffle_epi32(self, 0x0E)))`; 256 bits:
`(mm(castsi256_si128(self)), mm(castsi256_si128(permute4x64_epi64(self, 0x0E))))`,
with bit reinterpretations left out); lanes of the two vectors of the fallback
(`self.extract(k) as to`). -/
structure UpRow where
  vec : String
  to : String
  line : Nat
  kind : Kind
  toKind : Kind
  size : Nat
  width : Nat
  gate : Option Gate
  mm : Option Instr
  first : List Nat
  second : List Nat

/-- One lane of a downcast fallback: `self.extract(idx).min(top).max(bottom) as to`,
or `other` instead of `self`; floats have neither `min` nor `max` and unsigned
lanes have no `max` (0 here). -/
structure DownLane where
  self : Bool
  idx : Nat
  top : Int
  bottom : Int
  deriving DecidableEq

/-- One `impl Downcast<to> for vec`: source line, lane kinds, bytes per *result*
lane, source lanes; gate and pack instruction of the optimized version
(`mm(self, other)`), if there is one; lanes of the fallback. -/
structure DownRow where
  vec : String
  to : String
  line : Nat
  kind : Kind
  toKind : Kind
  size : Nat
  width : Nat
  gate : Option Gate
  mm : Option Instr
  lanes : List DownLane

/-- Instances of `Abs` in src/arch/x86/intrin/abs.rs. -/
def absRows : List AbsRow := [
  { vec := "f32x4", line := 16, kind := .f, size := 4, width := 4, gate := some .sse,
    mm := some .mm_and_ps, mask := 0x7fffffff, idx := [0, 1, 2, 3] },
  { vec := "f64x2", line := 37, kind := .f, size := 8, width := 2, gate := some .sse2,
    mm := some .mm_and_pd, mask := 0x7fffffffffffffff, idx := [0, 1] },
  { vec := "f32x8", line := 56, kind := .f, size := 4, width := 8, gate := some .avx,
    mm := some .mm256_and_ps, mask := 0x7fffffff, idx := [0, 1, 2, 3, 4, 5, 6, 7] },
  { vec := "f64x4", line := 81, kind := .f, size := 8, width := 4, gate := some .avx,
    mm := some .mm256_and_pd, mask := 0x7fffffffffffffff, idx := [0, 1, 2, 3] },
  { vec := "i8x16", line := 102, kind := .i, size := 1, width := 16, gate := some .ssse3,
    mm := some .mm_abs_epi8, mask := 0x0, idx := [0, 1, 2, 3, 4, 5, 6, 7, 8, 9, 10, 11, 12, 13, 14, 15] },
  { vec := "i16x8", line := 135, kind := .i, size := 2, width := 8, gate := some .ssse3,
    mm := some .mm_abs_epi16, mask := 0x0, idx := [0, 1, 2, 3, 4, 5, 6, 7] },
  { vec := "i32x4", line := 160, kind := .i, size := 4, width := 4, gate := some .ssse3,
    mm := some .mm_abs_epi32, mask := 0x0, idx := [0, 1, 2, 3] },
  { vec := "i8x32", line := 181, kind := .i, size := 1, width := 32, gate := some .avx2,
    mm := some .mm256_abs_epi8, mask := 0x0, idx := [0, 1, 2, 3, 4, 5, 6, 7, 8, 9, 10, 11, 12, 13, 14, 15, 16, 17, 18, 19, 20, 21, 22, 23, 24, 25, 26, 27, 28, 29, 30, 31] },
  { vec := "i16x16", line := 230, kind := .i, size := 2, width := 16, gate := some .avx2,
    mm := some .mm256_abs_epi16, mask := 0x0, idx := [0, 1, 2, 3, 4, 5, 6, 7, 8, 9, 10, 11, 12, 13, 14, 15] },
  { vec := "i32x8", line := 262, kind := .i, size := 4, width := 8, gate := some .avx2,
    mm := some .mm256_abs_epi32, mask := 0x0, idx := [0, 1, 2, 3, 4, 5, 6, 7] },
  { vec := "i64x2", line := 286, kind := .i, size := 8, width := 2, gate := none,
    mm := none, mask := 0x0, idx := [0, 1] },
  { vec := "i64x4", line := 297, kind := .i, size := 8, width := 4, gate := none,
    mm := none, mask := 0x0, idx := [0, 1, 2, 3] },
  { vec := "i64x8", line := 310, kind := .i, size := 8, width := 8, gate := none,
    mm := none, mask := 0x0, idx := [0, 1, 2, 3, 4, 5, 6, 7] }
]

/-- Instances of `Upcast` in src/arch/x86/intrin/upcast.rs. -/
def upcastRows : List UpRow := [
  { vec := "u8x16", to := "u16x8", line := 16, kind := .u, toKind := .u, size := 1,
    width := 16, gate := some .sse41, mm := some .mm_cvtepu8_epi16,
    first := [0, 1, 2, 3, 4, 5, 6, 7], second := [8, 9, 10, 11, 12, 13, 14, 15] },
  { vec := "i8x16", to := "i16x8", line := 51, kind := .i, toKind := .i, size := 1,
    width := 16, gate := some .sse41, mm := some .mm_cvtepi8_epi16,
    first := [0, 1, 2, 3, 4, 5, 6, 7], second := [8, 9, 10, 11, 12, 13, 14, 15] },
  { vec := "u16x8", to := "u32x4", line := 86, kind := .u, toKind := .u, size := 2,
    width := 8, gate := some .sse41, mm := some .mm_cvtepu16_epi32,
    first := [0, 1, 2, 3], second := [4, 5, 6, 7] },
  { vec := "i16x8", to := "i32x4", line := 112, kind := .i, toKind := .i, size := 2,
    width := 8, gate := some .sse41, mm := some .mm_cvtepi16_epi32,
    first := [0, 1, 2, 3], second := [4, 5, 6, 7] },
  { vec := "u8x32", to := "u16x16", line := 138, kind := .u, toKind := .u, size := 1,
    width := 32, gate := some .avx2, mm := some .mm256_cvtepu8_epi16,
    first := [0, 1, 2, 3, 4, 5, 6, 7, 8, 9, 10, 11, 12, 13, 14, 15], second := [16, 17, 18, 19, 20, 21, 22, 23, 24, 25, 26, 27, 28, 29, 30, 31] },
  { vec := "i8x32", to := "i16x16", line := 188, kind := .i, toKind := .i, size := 1,
    width := 32, gate := some .avx2, mm := some .mm256_cvtepi8_epi16,
    first := [0, 1, 2, 3, 4, 5, 6, 7, 8, 9, 10, 11, 12, 13, 14, 15], second := [16, 17, 18, 19, 20, 21, 22, 23, 24, 25, 26, 27, 28, 29, 30, 31] },
  { vec := "u16x16", to := "u32x8", line := 245, kind := .u, toKind := .u, size := 2,
    width := 16, gate := some .avx2, mm := some .mm256_cvtepu16_epi32,
    first := [0, 1, 2, 3, 4, 5, 6, 7], second := [8, 9, 10, 11, 12, 13, 14, 15] },
  { vec := "i16x16", to := "i32x8", line := 280, kind := .i, toKind := .i, size := 2,
    width := 16, gate := some .avx2, mm := some .mm256_cvtepi16_epi32,
    first := [0, 1, 2, 3, 4, 5, 6, 7], second := [8, 9, 10, 11, 12, 13, 14, 15] },
  { vec := "f32x4", to := "f64x2", line := 321, kind := .f, toKind := .f, size := 4,
    width := 4, gate := some .sse2, mm := some .mm_cvtps_pd,
    first := [0, 1], second := [2, 3] },
  { vec := "i32x4", to := "f64x2", line := 341, kind := .i, toKind := .f, size := 4,
    width := 4, gate := some .sse2, mm := some .mm_cvtepi32_pd,
    first := [0, 1], second := [2, 3] },
  { vec := "i32x4", to := "i64x2", line := 360, kind := .i, toKind := .i, size := 4,
    width := 4, gate := some .sse41, mm := some .mm_cvtepi32_epi64,
    first := [0, 1], second := [2, 3] },
  { vec := "u32x4", to := "u64x2", line := 382, kind := .u, toKind := .u, size := 4,
    width := 4, gate := some .sse41, mm := some .mm_cvtepu32_epi64,
    first := [0, 1], second := [2, 3] },
  { vec := "f32x8", to := "f64x4", line := 403, kind := .f, toKind := .f, size := 4,
    width := 8, gate := some .avx2, mm := some .mm256_cvtps_pd,
    first := [0, 1, 2, 3], second := [4, 5, 6, 7] },
  { vec := "i32x8", to := "f64x4", line := 437, kind := .i, toKind := .f, size := 4,
    width := 8, gate := some .avx2, mm := some .mm256_cvtepi32_pd,
    first := [0, 1, 2, 3], second := [4, 5, 6, 7] },
  { vec := "i32x8", to := "i64x4", line := 470, kind := .i, toKind := .i, size := 4,
    width := 8, gate := some .avx2, mm := some .mm256_cvtepi32_epi64,
    first := [0, 1, 2, 3], second := [4, 5, 6, 7] },
  { vec := "u32x8", to := "u64x4", line := 503, kind := .u, toKind := .u, size := 4,
    width := 8, gate := some .avx2, mm := some .mm256_cvtepu32_epi64,
    first := [0, 1, 2, 3], second := [4, 5, 6, 7] },
  { vec := "f32x16", to := "f64x8", line := 528, kind := .f, toKind := .f, size := 4,
    width := 16, gate := none, mm := none,
    first := [0, 1, 2, 3, 4, 5, 6, 7], second := [8, 9, 10, 11, 12, 13, 14, 15] },
  { vec := "i32x16", to := "f64x8", line := 551, kind := .i, toKind := .f, size := 4,
    width := 16, gate := none, mm := none,
    first := [0, 1, 2, 3, 4, 5, 6, 7], second := [8, 9, 10, 11, 12, 13, 14, 15] },
  { vec := "i32x16", to := "i64x8", line := 574, kind := .i, toKind := .i, size := 4,
    width := 16, gate := none, mm := none,
    first := [0, 1, 2, 3, 4, 5, 6, 7], second := [8, 9, 10, 11, 12, 13, 14, 15] },
  { vec := "u32x16", to := "u64x8", line := 597, kind := .u, toKind := .u, size := 4,
    width := 16, gate := none, mm := none,
    first := [0, 1, 2, 3, 4, 5, 6, 7], second := [8, 9, 10, 11, 12, 13, 14, 15] }
]

/-- Instances of `Downcast` in src/arch/x86/intrin/downcast.rs. -/
def downcastRows : List DownRow := [
  { vec := "i32x4", to := "i16x8", line := 16, kind := .i, toKind := .i, size := 2,
    width := 4, gate := some .sse2, mm := some .mm_packs_epi32,
    lanes := [⟨true, 0, 32767, -32768⟩, ⟨true, 1, 32767, -32768⟩, ⟨true, 2, 32767, -32768⟩, ⟨true, 3, 32767, -32768⟩, ⟨false, 0, 32767, -32768⟩, ⟨false, 1, 32767, -32768⟩, ⟨false, 2, 32767, -32768⟩, ⟨false, 3, 32767, -32768⟩] },
  { vec := "i64x2", to := "i32x4", line := 39, kind := .i, toKind := .i, size := 4,
    width := 2, gate := none, mm := none,
    lanes := [⟨true, 0, 2147483647, -2147483648⟩, ⟨true, 1, 2147483647, -2147483648⟩, ⟨false, 0, 2147483647, -2147483648⟩, ⟨false, 1, 2147483647, -2147483648⟩] },
  { vec := "u64x2", to := "u32x4", line := 50, kind := .u, toKind := .u, size := 4,
    width := 2, gate := none, mm := none,
    lanes := [⟨true, 0, 4294967295, 0⟩, ⟨true, 1, 2147483647, 0⟩, ⟨false, 0, 2147483647, 0⟩, ⟨false, 1, 2147483647, 0⟩] },
  { vec := "f64x2", to := "f32x4", line := 61, kind := .f, toKind := .f, size := 4,
    width := 2, gate := none, mm := none,
    lanes := [⟨true, 0, 0, 0⟩, ⟨true, 1, 0, 0⟩, ⟨false, 0, 0, 0⟩, ⟨false, 1, 0, 0⟩] },
  { vec := "i16x8", to := "i8x16", line := 72, kind := .i, toKind := .i, size := 1,
    width := 8, gate := some .sse2, mm := some .mm_packs_epi16,
    lanes := [⟨true, 0, 127, -128⟩, ⟨true, 1, 127, -128⟩, ⟨true, 2, 127, -128⟩, ⟨true, 3, 127, -128⟩, ⟨true, 4, 127, -128⟩, ⟨true, 5, 127, -128⟩, ⟨true, 6, 127, -128⟩, ⟨true, 7, 127, -128⟩, ⟨false, 0, 127, -128⟩, ⟨false, 1, 127, -128⟩, ⟨false, 2, 127, -128⟩, ⟨false, 3, 127, -128⟩, ⟨false, 4, 127, -128⟩, ⟨false, 5, 127, -128⟩, ⟨false, 6, 127, -128⟩, ⟨false, 7, 127, -128⟩] },
  { vec := "u32x4", to := "u16x8", line := 103, kind := .u, toKind := .u, size := 2,
    width := 4, gate := some .sse41, mm := some .mm_packus_epi32,
    lanes := [⟨true, 0, 65535, 0⟩, ⟨true, 1, 65535, 0⟩, ⟨true, 2, 65535, 0⟩, ⟨true, 3, 65535, 0⟩, ⟨false, 0, 65535, 0⟩, ⟨false, 1, 65535, 0⟩, ⟨false, 2, 65535, 0⟩, ⟨false, 3, 65535, 0⟩] },
  { vec := "u16x8", to := "u8x16", line := 126, kind := .u, toKind := .u, size := 1,
    width := 8, gate := some .sse2, mm := some .mm_packus_epi16,
    lanes := [⟨true, 0, 255, 0⟩, ⟨true, 1, 255, 0⟩, ⟨true, 2, 255, 0⟩, ⟨true, 3, 255, 0⟩, ⟨true, 4, 255, 0⟩, ⟨true, 5, 255, 0⟩, ⟨true, 6, 255, 0⟩, ⟨true, 7, 255, 0⟩, ⟨false, 0, 255, 0⟩, ⟨false, 1, 255, 0⟩, ⟨false, 2, 255, 0⟩, ⟨false, 3, 255, 0⟩, ⟨false, 4, 255, 0⟩, ⟨false, 5, 255, 0⟩, ⟨false, 6, 255, 0⟩, ⟨false, 7, 255, 0⟩] },
  { vec := "i32x8", to := "i16x16", line := 157, kind := .i, toKind := .i, size := 2,
    width := 8, gate := some .avx2, mm := some .mm256_packs_epi32,
    lanes := [⟨true, 0, 32767, -32768⟩, ⟨true, 1, 32767, -32768⟩, ⟨true, 2, 32767, -32768⟩, ⟨true, 3, 32767, -32768⟩, ⟨true, 4, 32767, -32768⟩, ⟨true, 5, 32767, -32768⟩, ⟨true, 6, 32767, -32768⟩, ⟨true, 7, 32767, -32768⟩, ⟨false, 0, 32767, -32768⟩, ⟨false, 1, 32767, -32768⟩, ⟨false, 2, 32767, -32768⟩, ⟨false, 3, 32767, -32768⟩, ⟨false, 4, 32767, -32768⟩, ⟨false, 5, 32767, -32768⟩, ⟨false, 6, 32767, -32768⟩, ⟨false, 7, 32767, -32768⟩] },
  { vec := "i16x16", to := "i8x32", line := 188, kind := .i, toKind := .i, size := 1,
    width := 16, gate := some .avx2, mm := some .mm256_packs_epi16,
    lanes := [⟨true, 0, 127, -128⟩, ⟨true, 1, 127, -128⟩, ⟨true, 2, 127, -128⟩, ⟨true, 3, 127, -128⟩, ⟨true, 4, 127, -128⟩, ⟨true, 5, 127, -128⟩, ⟨true, 6, 127, -128⟩, ⟨true, 7, 127, -128⟩, ⟨true, 8, 127, -128⟩, ⟨true, 9, 127, -128⟩, ⟨true, 10, 127, -128⟩, ⟨true, 11, 127, -128⟩, ⟨true, 12, 127, -128⟩, ⟨true, 13, 127, -128⟩, ⟨true, 14, 127, -128⟩, ⟨true, 15, 127, -128⟩, ⟨false, 0, 127, -128⟩, ⟨false, 1, 127, -128⟩, ⟨false, 2, 127, -128⟩, ⟨false, 3, 127, -128⟩, ⟨false, 4, 127, -128⟩, ⟨false, 5, 127, -128⟩, ⟨false, 6, 127, -128⟩, ⟨false, 7, 127, -128⟩, ⟨false, 8, 127, -128⟩, ⟨false, 9, 127, -128⟩, ⟨false, 10, 127, -128⟩, ⟨false, 11, 127, -128⟩, ⟨false, 12, 127, -128⟩, ⟨false, 13, 127, -128⟩, ⟨false, 14, 127, -128⟩, ⟨false, 15, 127, -128⟩] },
  { vec := "u32x8", to := "u16x16", line := 235, kind := .u, toKind := .u, size := 2,
    width := 8, gate := some .avx2, mm := some .mm256_packus_epi32,
    lanes := [⟨true, 0, 65535, 0⟩, ⟨true, 1, 65535, 0⟩, ⟨true, 2, 65535, 0⟩, ⟨true, 3, 65535, 0⟩, ⟨true, 4, 65535, 0⟩, ⟨true, 5, 65535, 0⟩, ⟨true, 6, 65535, 0⟩, ⟨true, 7, 65535, 0⟩, ⟨false, 0, 65535, 0⟩, ⟨false, 1, 65535, 0⟩, ⟨false, 2, 65535, 0⟩, ⟨false, 3, 65535, 0⟩, ⟨false, 4, 65535, 0⟩, ⟨false, 5, 65535, 0⟩, ⟨false, 6, 65535, 0⟩, ⟨false, 7, 65535, 0⟩] },
  { vec := "u16x16", to := "u8x32", line := 266, kind := .u, toKind := .u, size := 1,
    width := 16, gate := some .avx2, mm := some .mm256_packus_epi16,
    lanes := [⟨true, 0, 255, 0⟩, ⟨true, 1, 255, 0⟩, ⟨true, 2, 255, 0⟩, ⟨true, 3, 255, 0⟩, ⟨true, 4, 255, 0⟩, ⟨true, 5, 255, 0⟩, ⟨true, 6, 255, 0⟩, ⟨true, 7, 255, 0⟩, ⟨true, 8, 255, 0⟩, ⟨true, 9, 255, 0⟩, ⟨true, 10, 255, 0⟩, ⟨true, 11, 255, 0⟩, ⟨true, 12, 255, 0⟩, ⟨true, 13, 255, 0⟩, ⟨true, 14, 255, 0⟩, ⟨true, 15, 255, 0⟩, ⟨false, 0, 255, 0⟩, ⟨false, 1, 255, 0⟩, ⟨false, 2, 255, 0⟩, ⟨false, 3, 255, 0⟩, ⟨false, 4, 255, 0⟩, ⟨false, 5, 255, 0⟩, ⟨false, 6, 255, 0⟩, ⟨false, 7, 255, 0⟩, ⟨false, 8, 255, 0⟩, ⟨false, 9, 255, 0⟩, ⟨false, 10, 255, 0⟩, ⟨false, 11, 255, 0⟩, ⟨false, 12, 255, 0⟩, ⟨false, 13, 255, 0⟩, ⟨false, 14, 255, 0⟩, ⟨false, 15, 255, 0⟩] },
  { vec := "i64x4", to := "i32x8", line := 313, kind := .i, toKind := .i, size := 4,
    width := 4, gate := none, mm := none,
    lanes := [⟨true, 0, 2147483647, -2147483648⟩, ⟨true, 1, 2147483647, -2147483648⟩, ⟨true, 2, 2147483647, -2147483648⟩, ⟨true, 3, 2147483647, -2147483648⟩, ⟨false, 0, 2147483647, -2147483648⟩, ⟨false, 1, 2147483647, -2147483648⟩, ⟨false, 2, 2147483647, -2147483648⟩, ⟨false, 3, 2147483647, -2147483648⟩] },
  { vec := "u64x4", to := "u32x8", line := 328, kind := .u, toKind := .u, size := 4,
    width := 4, gate := none, mm := none,
    lanes := [⟨true, 0, 4294967295, 0⟩, ⟨true, 1, 2147483647, 0⟩, ⟨true, 2, 4294967295, 0⟩, ⟨true, 3, 2147483647, 0⟩, ⟨false, 0, 2147483647, 0⟩, ⟨false, 1, 2147483647, 0⟩, ⟨false, 2, 2147483647, 0⟩, ⟨false, 3, 2147483647, 0⟩] },
  { vec := "f64x4", to := "f32x8", line := 343, kind := .f, toKind := .f, size := 4,
    width := 4, gate := none, mm := none,
    lanes := [⟨true, 0, 0, 0⟩, ⟨true, 1, 0, 0⟩, ⟨true, 2, 0, 0⟩, ⟨true, 3, 0, 0⟩, ⟨false, 0, 0, 0⟩, ⟨false, 1, 0, 0⟩, ⟨false, 2, 0, 0⟩, ⟨false, 3, 0, 0⟩] }
]

/-- Instances of `Abs` in src/arch/unknown/intrin/abs.rs. -/
def absRowsUnknown : List AbsRow := [
  { vec := "f32x4", line := 12, kind := .f, size := 4, width := 4, gate := none,
    mm := none, mask := 0x0, idx := [0, 1, 2, 3] },
  { vec := "f64x2", line := 24, kind := .f, size := 8, width := 2, gate := none,
    mm := none, mask := 0x0, idx := [0, 1] },
  { vec := "f32x8", line := 34, kind := .f, size := 4, width := 8, gate := none,
    mm := none, mask := 0x0, idx := [0, 1, 2, 3, 4, 5, 6, 7] },
  { vec := "f64x4", line := 50, kind := .f, size := 8, width := 4, gate := none,
    mm := none, mask := 0x0, idx := [0, 1, 2, 3] },
  { vec := "i8x16", line := 62, kind := .i, size := 1, width := 16, gate := none,
    mm := none, mask := 0x0, idx := [0, 1, 2, 3, 4, 5, 6, 7, 8, 9, 10, 11, 12, 13, 14, 15] },
  { vec := "i16x8", line := 86, kind := .i, size := 2, width := 8, gate := none,
    mm := none, mask := 0x0, idx := [0, 1, 2, 3, 4, 5, 6, 7] },
  { vec := "i32x4", line := 102, kind := .i, size := 4, width := 4, gate := none,
    mm := none, mask := 0x0, idx := [0, 1, 2, 3] },
  { vec := "i8x32", line := 114, kind := .i, size := 1, width := 32, gate := none,
    mm := none, mask := 0x0, idx := [0, 1, 2, 3, 4, 5, 6, 7, 8, 9, 10, 11, 12, 13, 14, 15, 16, 17, 18, 19, 20, 21, 22, 23, 24, 25, 26, 27, 28, 29, 30, 31] },
  { vec := "i16x16", line := 154, kind := .i, size := 2, width := 16, gate := none,
    mm := none, mask := 0x0, idx := [0, 1, 2, 3, 4, 5, 6, 7, 8, 9, 10, 11, 12, 13, 14, 15] },
  { vec := "i32x8", line := 178, kind := .i, size := 4, width := 8, gate := none,
    mm := none, mask := 0x0, idx := [0, 1, 2, 3, 4, 5, 6, 7] },
  { vec := "i64x2", line := 194, kind := .i, size := 8, width := 2, gate := none,
    mm := none, mask := 0x0, idx := [0, 1] },
  { vec := "i64x4", line := 204, kind := .i, size := 8, width := 4, gate := none,
    mm := none, mask := 0x0, idx := [0, 1, 2, 3] },
  { vec := "i64x8", line := 216, kind := .i, size := 8, width := 8, gate := none,
    mm := none, mask := 0x0, idx := [0, 1, 2, 3, 4, 5, 6, 7] }
]

/-- Instances of `Upcast` in src/arch/unknown/intrin/upcast.rs. -/
def upcastRowsUnknown : List UpRow := [
  { vec := "u8x16", to := "u16x8", line := 11, kind := .u, toKind := .u, size := 1,
    width := 16, gate := none, mm := none,
    first := [0, 1, 2, 3, 4, 5, 6, 7], second := [8, 9, 10, 11, 12, 13, 14, 15] },
  { vec := "i8x16", to := "i16x8", line := 33, kind := .i, toKind := .i, size := 1,
    width := 16, gate := none, mm := none,
    first := [0, 1, 2, 3, 4, 5, 6, 7], second := [8, 9, 10, 11, 12, 13, 14, 15] },
  { vec := "u16x8", to := "u32x4", line := 55, kind := .u, toKind := .u, size := 2,
    width := 8, gate := none, mm := none,
    first := [0, 1, 2, 3], second := [4, 5, 6, 7] },
  { vec := "i16x8", to := "i32x4", line := 69, kind := .i, toKind := .i, size := 2,
    width := 8, gate := none, mm := none,
    first := [0, 1, 2, 3], second := [4, 5, 6, 7] },
  { vec := "u8x32", to := "u16x16", line := 83, kind := .u, toKind := .u, size := 1,
    width := 32, gate := none, mm := none,
    first := [0, 1, 2, 3, 4, 5, 6, 7, 8, 9, 10, 11, 12, 13, 14, 15], second := [16, 17, 18, 19, 20, 21, 22, 23, 24, 25, 26, 27, 28, 29, 30, 31] },
  { vec := "i8x32", to := "i16x16", line := 121, kind := .i, toKind := .i, size := 1,
    width := 32, gate := none, mm := none,
    first := [0, 1, 2, 3, 4, 5, 6, 7, 8, 9, 10, 11, 12, 13, 14, 15], second := [16, 17, 18, 19, 20, 21, 22, 23, 24, 25, 26, 27, 28, 29, 30, 31] },
  { vec := "u16x16", to := "u32x8", line := 159, kind := .u, toKind := .u, size := 2,
    width := 16, gate := none, mm := none,
    first := [0, 1, 2, 3, 4, 5, 6, 7], second := [8, 9, 10, 11, 12, 13, 14, 15] },
  { vec := "i16x16", to := "i32x8", line := 182, kind := .i, toKind := .i, size := 2,
    width := 16, gate := none, mm := none,
    first := [0, 1, 2, 3, 4, 5, 6, 7], second := [8, 9, 10, 11, 12, 13, 14, 15] },
  { vec := "f32x4", to := "f64x2", line := 204, kind := .f, toKind := .f, size := 4,
    width := 4, gate := none, mm := none,
    first := [0, 1], second := [2, 3] },
  { vec := "i32x4", to := "f64x2", line := 214, kind := .i, toKind := .f, size := 4,
    width := 4, gate := none, mm := none,
    first := [0, 1], second := [2, 3] },
  { vec := "i32x4", to := "i64x2", line := 224, kind := .i, toKind := .i, size := 4,
    width := 4, gate := none, mm := none,
    first := [0, 1], second := [2, 3] },
  { vec := "u32x4", to := "u64x2", line := 234, kind := .u, toKind := .u, size := 4,
    width := 4, gate := none, mm := none,
    first := [0, 1], second := [2, 3] },
  { vec := "f32x8", to := "f64x4", line := 244, kind := .f, toKind := .f, size := 4,
    width := 8, gate := none, mm := none,
    first := [0, 1, 2, 3], second := [4, 5, 6, 7] },
  { vec := "i32x8", to := "f64x4", line := 258, kind := .i, toKind := .f, size := 4,
    width := 8, gate := none, mm := none,
    first := [0, 1, 2, 3], second := [4, 5, 6, 7] },
  { vec := "i32x8", to := "i64x4", line := 272, kind := .i, toKind := .i, size := 4,
    width := 8, gate := none, mm := none,
    first := [0, 1, 2, 3], second := [4, 5, 6, 7] },
  { vec := "u32x8", to := "u64x4", line := 286, kind := .u, toKind := .u, size := 4,
    width := 8, gate := none, mm := none,
    first := [0, 1, 2, 3], second := [4, 5, 6, 7] },
  { vec := "f32x16", to := "f64x8", line := 300, kind := .f, toKind := .f, size := 4,
    width := 16, gate := none, mm := none,
    first := [0, 1, 2, 3, 4, 5, 6, 7], second := [8, 9, 10, 11, 12, 13, 14, 15] },
  { vec := "i32x16", to := "f64x8", line := 322, kind := .i, toKind := .f, size := 4,
    width := 16, gate := none, mm := none,
    first := [0, 1, 2, 3, 4, 5, 6, 7], second := [8, 9, 10, 11, 12, 13, 14, 15] },
  { vec := "i32x16", to := "i64x8", line := 344, kind := .i, toKind := .i, size := 4,
    width := 16, gate := none, mm := none,
    first := [0, 1, 2, 3, 4, 5, 6, 7], second := [8, 9, 10, 11, 12, 13, 14, 15] },
  { vec := "u32x16", to := "u64x8", line := 366, kind := .u, toKind := .u, size := 4,
    width := 16, gate := none, mm := none,
    first := [0, 1, 2, 3, 4, 5, 6, 7], second := [8, 9, 10, 11, 12, 13, 14, 15] }
]

/-- Instances of `Downcast` in src/arch/unknown/intrin/downcast.rs. -/
def downcastRowsUnknown : List DownRow := [
  { vec := "i32x4", to := "i16x8", line := 11, kind := .i, toKind := .i, size := 2,
    width := 4, gate := none, mm := none,
    lanes := [⟨true, 0, 32767, -32768⟩, ⟨true, 1, 32767, -32768⟩, ⟨true, 2, 32767, -32768⟩, ⟨true, 3, 32767, -32768⟩, ⟨false, 0, 32767, -32768⟩, ⟨false, 1, 32767, -32768⟩, ⟨false, 2, 32767, -32768⟩, ⟨false, 3, 32767, -32768⟩] },
  { vec := "i64x2", to := "i32x4", line := 25, kind := .i, toKind := .i, size := 4,
    width := 2, gate := none, mm := none,
    lanes := [⟨true, 0, 2147483647, -2147483648⟩, ⟨true, 1, 2147483647, -2147483648⟩, ⟨false, 0, 2147483647, -2147483648⟩, ⟨false, 1, 2147483647, -2147483648⟩] },
  { vec := "u64x2", to := "u32x4", line := 35, kind := .u, toKind := .u, size := 4,
    width := 2, gate := none, mm := none,
    lanes := [⟨true, 0, 4294967295, 0⟩, ⟨true, 1, 2147483647, 0⟩, ⟨false, 0, 2147483647, 0⟩, ⟨false, 1, 2147483647, 0⟩] },
  { vec := "f64x2", to := "f32x4", line := 45, kind := .f, toKind := .f, size := 4,
    width := 2, gate := none, mm := none,
    lanes := [⟨true, 0, 0, 0⟩, ⟨true, 1, 0, 0⟩, ⟨false, 0, 0, 0⟩, ⟨false, 1, 0, 0⟩] },
  { vec := "i16x8", to := "i8x16", line := 55, kind := .i, toKind := .i, size := 1,
    width := 8, gate := none, mm := none,
    lanes := [⟨true, 0, 127, -128⟩, ⟨true, 1, 127, -128⟩, ⟨true, 2, 127, -128⟩, ⟨true, 3, 127, -128⟩, ⟨true, 4, 127, -128⟩, ⟨true, 5, 127, -128⟩, ⟨true, 6, 127, -128⟩, ⟨true, 7, 127, -128⟩, ⟨false, 0, 127, -128⟩, ⟨false, 1, 127, -128⟩, ⟨false, 2, 127, -128⟩, ⟨false, 3, 127, -128⟩, ⟨false, 4, 127, -128⟩, ⟨false, 5, 127, -128⟩, ⟨false, 6, 127, -128⟩, ⟨false, 7, 127, -128⟩] },
  { vec := "u32x4", to := "u16x8", line := 77, kind := .u, toKind := .u, size := 2,
    width := 4, gate := none, mm := none,
    lanes := [⟨true, 0, 65535, 0⟩, ⟨true, 1, 65535, 0⟩, ⟨true, 2, 65535, 0⟩, ⟨true, 3, 65535, 0⟩, ⟨false, 0, 65535, 0⟩, ⟨false, 1, 65535, 0⟩, ⟨false, 2, 65535, 0⟩, ⟨false, 3, 65535, 0⟩] },
  { vec := "u16x8", to := "u8x16", line := 91, kind := .u, toKind := .u, size := 1,
    width := 8, gate := none, mm := none,
    lanes := [⟨true, 0, 255, 0⟩, ⟨true, 1, 255, 0⟩, ⟨true, 2, 255, 0⟩, ⟨true, 3, 255, 0⟩, ⟨true, 4, 255, 0⟩, ⟨true, 5, 255, 0⟩, ⟨true, 6, 255, 0⟩, ⟨true, 7, 255, 0⟩, ⟨false, 0, 255, 0⟩, ⟨false, 1, 255, 0⟩, ⟨false, 2, 255, 0⟩, ⟨false, 3, 255, 0⟩, ⟨false, 4, 255, 0⟩, ⟨false, 5, 255, 0⟩, ⟨false, 6, 255, 0⟩, ⟨false, 7, 255, 0⟩] },
  { vec := "i32x8", to := "i16x16", line := 113, kind := .i, toKind := .i, size := 2,
    width := 8, gate := none, mm := none,
    lanes := [⟨true, 0, 32767, -32768⟩, ⟨true, 1, 32767, -32768⟩, ⟨true, 2, 32767, -32768⟩, ⟨true, 3, 32767, -32768⟩, ⟨true, 4, 32767, -32768⟩, ⟨true, 5, 32767, -32768⟩, ⟨true, 6, 32767, -32768⟩, ⟨true, 7, 32767, -32768⟩, ⟨false, 0, 32767, -32768⟩, ⟨false, 1, 32767, -32768⟩, ⟨false, 2, 32767, -32768⟩, ⟨false, 3, 32767, -32768⟩, ⟨false, 4, 32767, -32768⟩, ⟨false, 5, 32767, -32768⟩, ⟨false, 6, 32767, -32768⟩, ⟨false, 7, 32767, -32768⟩] },
  { vec := "i16x16", to := "i8x32", line := 135, kind := .i, toKind := .i, size := 1,
    width := 16, gate := none, mm := none,
    lanes := [⟨true, 0, 127, -128⟩, ⟨true, 1, 127, -128⟩, ⟨true, 2, 127, -128⟩, ⟨true, 3, 127, -128⟩, ⟨true, 4, 127, -128⟩, ⟨true, 5, 127, -128⟩, ⟨true, 6, 127, -128⟩, ⟨true, 7, 127, -128⟩, ⟨true, 8, 127, -128⟩, ⟨true, 9, 127, -128⟩, ⟨true, 10, 127, -128⟩, ⟨true, 11, 127, -128⟩, ⟨true, 12, 127, -128⟩, ⟨true, 13, 127, -128⟩, ⟨true, 14, 127, -128⟩, ⟨true, 15, 127, -128⟩, ⟨false, 0, 127, -128⟩, ⟨false, 1, 127, -128⟩, ⟨false, 2, 127, -128⟩, ⟨false, 3, 127, -128⟩, ⟨false, 4, 127, -128⟩, ⟨false, 5, 127, -128⟩, ⟨false, 6, 127, -128⟩, ⟨false, 7, 127, -128⟩, ⟨false, 8, 127, -128⟩, ⟨false, 9, 127, -128⟩, ⟨false, 10, 127, -128⟩, ⟨false, 11, 127, -128⟩, ⟨false, 12, 127, -128⟩, ⟨false, 13, 127, -128⟩, ⟨false, 14, 127, -128⟩, ⟨false, 15, 127, -128⟩] },
  { vec := "u32x8", to := "u16x16", line := 173, kind := .u, toKind := .u, size := 2,
    width := 8, gate := none, mm := none,
    lanes := [⟨true, 0, 65535, 0⟩, ⟨true, 1, 65535, 0⟩, ⟨true, 2, 65535, 0⟩, ⟨true, 3, 65535, 0⟩, ⟨true, 4, 65535, 0⟩, ⟨true, 5, 65535, 0⟩, ⟨true, 6, 65535, 0⟩, ⟨true, 7, 65535, 0⟩, ⟨false, 0, 65535, 0⟩, ⟨false, 1, 65535, 0⟩, ⟨false, 2, 65535, 0⟩, ⟨false, 3, 65535, 0⟩, ⟨false, 4, 65535, 0⟩, ⟨false, 5, 65535, 0⟩, ⟨false, 6, 65535, 0⟩, ⟨false, 7, 65535, 0⟩] },
  { vec := "u16x16", to := "u8x32", line := 195, kind := .u, toKind := .u, size := 1,
    width := 16, gate := none, mm := none,
    lanes := [⟨true, 0, 255, 0⟩, ⟨true, 1, 255, 0⟩, ⟨true, 2, 255, 0⟩, ⟨true, 3, 255, 0⟩, ⟨true, 4, 255, 0⟩, ⟨true, 5, 255, 0⟩, ⟨true, 6, 255, 0⟩, ⟨true, 7, 255, 0⟩, ⟨true, 8, 255, 0⟩, ⟨true, 9, 255, 0⟩, ⟨true, 10, 255, 0⟩, ⟨true, 11, 255, 0⟩, ⟨true, 12, 255, 0⟩, ⟨true, 13, 255, 0⟩, ⟨true, 14, 255, 0⟩, ⟨true, 15, 255, 0⟩, ⟨false, 0, 255, 0⟩, ⟨false, 1, 255, 0⟩, ⟨false, 2, 255, 0⟩, ⟨false, 3, 255, 0⟩, ⟨false, 4, 255, 0⟩, ⟨false, 5, 255, 0⟩, ⟨false, 6, 255, 0⟩, ⟨false, 7, 255, 0⟩, ⟨false, 8, 255, 0⟩, ⟨false, 9, 255, 0⟩, ⟨false, 10, 255, 0⟩, ⟨false, 11, 255, 0⟩, ⟨false, 12, 255, 0⟩, ⟨false, 13, 255, 0⟩, ⟨false, 14, 255, 0⟩, ⟨false, 15, 255, 0⟩] },
  { vec := "i64x4", to := "i32x8", line := 233, kind := .i, toKind := .i, size := 4,
    width := 4, gate := none, mm := none,
    lanes := [⟨true, 0, 2147483647, -2147483648⟩, ⟨true, 1, 2147483647, -2147483648⟩, ⟨true, 2, 2147483647, -2147483648⟩, ⟨true, 3, 2147483647, -2147483648⟩, ⟨false, 0, 2147483647, -2147483648⟩, ⟨false, 1, 2147483647, -2147483648⟩, ⟨false, 2, 2147483647, -2147483648⟩, ⟨false, 3, 2147483647, -2147483648⟩] },
  { vec := "u64x4", to := "u32x8", line := 247, kind := .u, toKind := .u, size := 4,
    width := 4, gate := none, mm := none,
    lanes := [⟨true, 0, 4294967295, 0⟩, ⟨true, 1, 2147483647, 0⟩, ⟨true, 2, 4294967295, 0⟩, ⟨true, 3, 2147483647, 0⟩, ⟨false, 0, 2147483647, 0⟩, ⟨false, 1, 2147483647, 0⟩, ⟨false, 2, 2147483647, 0⟩, ⟨false, 3, 2147483647, 0⟩] },
  { vec := "f64x4", to := "f32x8", line := 261, kind := .f, toKind := .f, size := 4,
    width := 4, gate := none, mm := none,
    lanes := [⟨true, 0, 0, 0⟩, ⟨true, 1, 0, 0⟩, ⟨true, 2, 0, 0⟩, ⟨true, 3, 0, 0⟩, ⟨false, 0, 0, 0⟩, ⟨false, 1, 0, 0⟩, ⟨false, 2, 0, 0⟩, ⟨false, 3, 0, 0⟩] }
]

end Faster
