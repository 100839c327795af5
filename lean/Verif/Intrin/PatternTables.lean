/-
The literals of `src/arch/x86/vec_patterns.rs` and `src/arch/unknown/vec_patterns.rs`. Written by
`tools/gen_patterns.py`.
-/
namespace Faster

/-- The arguments of `Self::new(hi, lo, …)`: their number, and a number whose bit `i` is set if
argument `i` is `hi`; the others are `lo`. -/
structure Args where
  count : Nat
  his : Nat
deriving DecidableEq, Repr

/-- One `impl Pattern` and the line it starts at: element size in bytes and number of lanes of
the vector type, the arguments in `halfs` and `interleave`, the arms of the `match` in
`partition`, and the literals of `ones` and `zeroes` with their number of bits. -/
structure PatternRow where
  vec : String
  line : Nat
  size : Nat
  width : Nat
  halfs : Args
  interleave : Args
  arms : List (Nat × Args)
  ones : Nat × Nat
  zeroes : Nat × Nat
deriving DecidableEq, Repr

/-- `PART_MASK` (src/arch/x86/vec_patterns.rs). -/
def partMaskBytes : List Nat := [
  0, 0, 0, 0, 0, 0, 0, 0, 0, 0, 0, 0, 0, 0, 0, 0,
  0, 0, 0, 0, 0, 0, 0, 0, 0, 0, 0, 0, 0, 0, 0, 0,
  0, 0, 0, 0, 0, 0, 0, 0, 0, 0, 0, 0, 0, 0, 0, 0,
  0, 0, 0, 0, 0, 0, 0, 0, 0, 0, 0, 0, 0, 0, 0, 0,
  255, 255, 255, 255, 255, 255, 255, 255, 255, 255, 255, 255, 255, 255, 255, 255,
  255, 255, 255, 255, 255, 255, 255, 255, 255, 255, 255, 255, 255, 255, 255, 255,
  255, 255, 255, 255, 255, 255, 255, 255, 255, 255, 255, 255, 255, 255, 255, 255,
  255, 255, 255, 255, 255, 255, 255, 255, 255, 255, 255, 255, 255, 255, 255, 255]

/-- The pattern constructors of src/arch/x86/vec_patterns.rs. -/
def patternRows : List PatternRow := [
  { vec := "u8x64", line := 37, size := 1, width := 64,
    halfs := ⟨64, 0xFFFFFFFF⟩, interleave := ⟨64, 0x5555555555555555⟩,
    arms := [
      (0, ⟨64, 0x0⟩), (1, ⟨64, 0x1⟩), (2, ⟨64, 0x3⟩), (3, ⟨64, 0x7⟩),
      (4, ⟨64, 0xF⟩), (5, ⟨64, 0x1F⟩), (6, ⟨64, 0x3F⟩), (7, ⟨64, 0x7F⟩),
      (8, ⟨64, 0xFF⟩), (9, ⟨64, 0x1FF⟩), (10, ⟨64, 0x3FF⟩), (11, ⟨64, 0x7FF⟩),
      (12, ⟨64, 0xFFF⟩), (13, ⟨64, 0x1FFF⟩), (14, ⟨64, 0x3FFF⟩), (15, ⟨64, 0x7FFF⟩),
      (16, ⟨64, 0xFFFF⟩), (17, ⟨64, 0x1FFFF⟩), (18, ⟨64, 0x3FFFF⟩), (19, ⟨64, 0x7FFFF⟩),
      (20, ⟨64, 0xFFFFF⟩), (21, ⟨64, 0x1FFFFF⟩), (22, ⟨64, 0x3FFFFF⟩), (23, ⟨64, 0x7FFFFF⟩),
      (24, ⟨64, 0xFFFFFF⟩), (25, ⟨64, 0x1FFFFFF⟩), (26, ⟨64, 0x3FFFFFF⟩), (27, ⟨64, 0x7FFFFFF⟩),
      (28, ⟨64, 0xFFFFFFF⟩), (29, ⟨64, 0x1FFFFFFF⟩), (30, ⟨64, 0x3FFFFFFF⟩), (31, ⟨64, 0x7FFFFFFF⟩),
      (32, ⟨64, 0xFFFFFFFF⟩), (33, ⟨64, 0x1FFFFFFFF⟩), (34, ⟨64, 0x3FFFFFFFF⟩), (35, ⟨64, 0x7FFFFFFFF⟩),
      (36, ⟨64, 0xFFFFFFFFF⟩), (37, ⟨64, 0x1FFFFFFFFF⟩), (38, ⟨64, 0x3FFFFFFFFF⟩), (39, ⟨64, 0x7FFFFFFFFF⟩),
      (40, ⟨64, 0xFFFFFFFFFF⟩), (41, ⟨64, 0x1FFFFFFFFFF⟩), (42, ⟨64, 0x3FFFFFFFFFF⟩), (43, ⟨64, 0x7FFFFFFFFFF⟩),
      (44, ⟨64, 0xFFFFFFFFFFF⟩), (45, ⟨64, 0x1FFFFFFFFFFF⟩), (46, ⟨64, 0x3FFFFFFFFFFF⟩), (47, ⟨64, 0x7FFFFFFFFFFF⟩),
      (48, ⟨64, 0xFFFFFFFFFFFF⟩), (49, ⟨64, 0x1FFFFFFFFFFFF⟩), (50, ⟨64, 0x3FFFFFFFFFFFF⟩), (51, ⟨64, 0x7FFFFFFFFFFFF⟩),
      (52, ⟨64, 0xFFFFFFFFFFFFF⟩), (53, ⟨64, 0x1FFFFFFFFFFFFF⟩), (54, ⟨64, 0x3FFFFFFFFFFFFF⟩), (55, ⟨64, 0x7FFFFFFFFFFFFF⟩),
      (56, ⟨64, 0xFFFFFFFFFFFFFF⟩), (57, ⟨64, 0x1FFFFFFFFFFFFFF⟩), (58, ⟨64, 0x3FFFFFFFFFFFFFF⟩), (59, ⟨64, 0x7FFFFFFFFFFFFFF⟩),
      (60, ⟨64, 0xFFFFFFFFFFFFFFF⟩), (61, ⟨64, 0x1FFFFFFFFFFFFFFF⟩), (62, ⟨64, 0x3FFFFFFFFFFFFFFF⟩), (63, ⟨64, 0x7FFFFFFFFFFFFFFF⟩),
      (64, ⟨64, 0xFFFFFFFFFFFFFFFF⟩)],
    ones := (0xFF, 8), zeroes := (0x00, 8) },
  { vec := "u8x32", line := 150, size := 1, width := 32,
    halfs := ⟨32, 0xFFFF⟩, interleave := ⟨32, 0x55555555⟩,
    arms := [
      (0, ⟨32, 0x0⟩), (1, ⟨32, 0x1⟩), (2, ⟨32, 0x3⟩), (3, ⟨32, 0x7⟩),
      (4, ⟨32, 0xF⟩), (5, ⟨32, 0x1F⟩), (6, ⟨32, 0x3F⟩), (7, ⟨32, 0x7F⟩),
      (8, ⟨32, 0xFF⟩), (9, ⟨32, 0x1FF⟩), (10, ⟨32, 0x3FF⟩), (11, ⟨32, 0x7FF⟩),
      (12, ⟨32, 0xFFF⟩), (13, ⟨32, 0x1FFF⟩), (14, ⟨32, 0x3FFF⟩), (15, ⟨32, 0x7FFF⟩),
      (16, ⟨32, 0xFFFF⟩), (17, ⟨32, 0x1FFFF⟩), (18, ⟨32, 0x3FFFF⟩), (19, ⟨32, 0x7FFFF⟩),
      (20, ⟨32, 0xFFFFF⟩), (21, ⟨32, 0x1FFFFF⟩), (22, ⟨32, 0x3FFFFF⟩), (23, ⟨32, 0x7FFFFF⟩),
      (24, ⟨32, 0xFFFFFF⟩), (25, ⟨32, 0x1FFFFFF⟩), (26, ⟨32, 0x3FFFFFF⟩), (27, ⟨32, 0x7FFFFFF⟩),
      (28, ⟨32, 0xFFFFFFF⟩), (29, ⟨32, 0x1FFFFFFF⟩), (30, ⟨32, 0x3FFFFFFF⟩), (31, ⟨32, 0x7FFFFFFF⟩),
      (32, ⟨32, 0xFFFFFFFF⟩)],
    ones := (0xFF, 8), zeroes := (0x00, 8) },
  { vec := "u8x16", line := 231, size := 1, width := 16,
    halfs := ⟨16, 0xFF⟩, interleave := ⟨16, 0x5555⟩,
    arms := [
      (0, ⟨16, 0x0⟩), (1, ⟨16, 0x1⟩), (2, ⟨16, 0x3⟩), (3, ⟨16, 0x7⟩),
      (4, ⟨16, 0xF⟩), (5, ⟨16, 0x1F⟩), (6, ⟨16, 0x3F⟩), (7, ⟨16, 0x7F⟩),
      (8, ⟨16, 0xFF⟩), (9, ⟨16, 0x1FF⟩), (10, ⟨16, 0x3FF⟩), (11, ⟨16, 0x7FF⟩),
      (12, ⟨16, 0xFFF⟩), (13, ⟨16, 0x1FFF⟩), (14, ⟨16, 0x3FFF⟩), (15, ⟨16, 0x7FFF⟩),
      (16, ⟨16, 0xFFFF⟩)],
    ones := (0xFF, 8), zeroes := (0x00, 8) },
  { vec := "i8x64", line := 296, size := 1, width := 64,
    halfs := ⟨64, 0xFFFFFFFF⟩, interleave := ⟨64, 0x5555555555555555⟩,
    arms := [
      (0, ⟨64, 0x0⟩), (1, ⟨64, 0x1⟩), (2, ⟨64, 0x3⟩), (3, ⟨64, 0x7⟩),
      (4, ⟨64, 0xF⟩), (5, ⟨64, 0x1F⟩), (6, ⟨64, 0x3F⟩), (7, ⟨64, 0x7F⟩),
      (8, ⟨64, 0xFF⟩), (9, ⟨64, 0x1FF⟩), (10, ⟨64, 0x3FF⟩), (11, ⟨64, 0x7FF⟩),
      (12, ⟨64, 0xFFF⟩), (13, ⟨64, 0x1FFF⟩), (14, ⟨64, 0x3FFF⟩), (15, ⟨64, 0x7FFF⟩),
      (16, ⟨64, 0xFFFF⟩), (17, ⟨64, 0x1FFFF⟩), (18, ⟨64, 0x3FFFF⟩), (19, ⟨64, 0x7FFFF⟩),
      (20, ⟨64, 0xFFFFF⟩), (21, ⟨64, 0x1FFFFF⟩), (22, ⟨64, 0x3FFFFF⟩), (23, ⟨64, 0x7FFFFF⟩),
      (24, ⟨64, 0xFFFFFF⟩), (25, ⟨64, 0x1FFFFFF⟩), (26, ⟨64, 0x3FFFFFF⟩), (27, ⟨64, 0x7FFFFFF⟩),
      (28, ⟨64, 0xFFFFFFF⟩), (29, ⟨64, 0x1FFFFFFF⟩), (30, ⟨64, 0x3FFFFFFF⟩), (31, ⟨64, 0x7FFFFFFF⟩),
      (32, ⟨64, 0xFFFFFFFF⟩), (33, ⟨64, 0x1FFFFFFFF⟩), (34, ⟨64, 0x3FFFFFFFF⟩), (35, ⟨64, 0x7FFFFFFFF⟩),
      (36, ⟨64, 0xFFFFFFFFF⟩), (37, ⟨64, 0x1FFFFFFFFF⟩), (38, ⟨64, 0x3FFFFFFFFF⟩), (39, ⟨64, 0x7FFFFFFFFF⟩),
      (40, ⟨64, 0xFFFFFFFFFF⟩), (41, ⟨64, 0x1FFFFFFFFFF⟩), (42, ⟨64, 0x3FFFFFFFFFF⟩), (43, ⟨64, 0x7FFFFFFFFFF⟩),
      (44, ⟨64, 0xFFFFFFFFFFF⟩), (45, ⟨64, 0x1FFFFFFFFFFF⟩), (46, ⟨64, 0x3FFFFFFFFFFF⟩), (47, ⟨64, 0x7FFFFFFFFFFF⟩),
      (48, ⟨64, 0xFFFFFFFFFFFF⟩), (49, ⟨64, 0x1FFFFFFFFFFFF⟩), (50, ⟨64, 0x3FFFFFFFFFFFF⟩), (51, ⟨64, 0x7FFFFFFFFFFFF⟩),
      (52, ⟨64, 0xFFFFFFFFFFFFF⟩), (53, ⟨64, 0x1FFFFFFFFFFFFF⟩), (54, ⟨64, 0x3FFFFFFFFFFFFF⟩), (55, ⟨64, 0x7FFFFFFFFFFFFF⟩),
      (56, ⟨64, 0xFFFFFFFFFFFFFF⟩), (57, ⟨64, 0x1FFFFFFFFFFFFFF⟩), (58, ⟨64, 0x3FFFFFFFFFFFFFF⟩), (59, ⟨64, 0x7FFFFFFFFFFFFFF⟩),
      (60, ⟨64, 0xFFFFFFFFFFFFFFF⟩), (61, ⟨64, 0x1FFFFFFFFFFFFFFF⟩), (62, ⟨64, 0x3FFFFFFFFFFFFFFF⟩), (63, ⟨64, 0x7FFFFFFFFFFFFFFF⟩),
      (64, ⟨64, 0xFFFFFFFFFFFFFFFF⟩)],
    ones := (0xFF, 8), zeroes := (0x00, 8) },
  { vec := "i8x32", line := 409, size := 1, width := 32,
    halfs := ⟨32, 0xFFFF⟩, interleave := ⟨32, 0x55555555⟩,
    arms := [
      (0, ⟨32, 0x0⟩), (1, ⟨32, 0x1⟩), (2, ⟨32, 0x3⟩), (3, ⟨32, 0x7⟩),
      (4, ⟨32, 0xF⟩), (5, ⟨32, 0x1F⟩), (6, ⟨32, 0x3F⟩), (7, ⟨32, 0x7F⟩),
      (8, ⟨32, 0xFF⟩), (9, ⟨32, 0x1FF⟩), (10, ⟨32, 0x3FF⟩), (11, ⟨32, 0x7FF⟩),
      (12, ⟨32, 0xFFF⟩), (13, ⟨32, 0x1FFF⟩), (14, ⟨32, 0x3FFF⟩), (15, ⟨32, 0x7FFF⟩),
      (16, ⟨32, 0xFFFF⟩), (17, ⟨32, 0x1FFFF⟩), (18, ⟨32, 0x3FFFF⟩), (19, ⟨32, 0x7FFFF⟩),
      (20, ⟨32, 0xFFFFF⟩), (21, ⟨32, 0x1FFFFF⟩), (22, ⟨32, 0x3FFFFF⟩), (23, ⟨32, 0x7FFFFF⟩),
      (24, ⟨32, 0xFFFFFF⟩), (25, ⟨32, 0x1FFFFFF⟩), (26, ⟨32, 0x3FFFFFF⟩), (27, ⟨32, 0x7FFFFFF⟩),
      (28, ⟨32, 0xFFFFFFF⟩), (29, ⟨32, 0x1FFFFFFF⟩), (30, ⟨32, 0x3FFFFFFF⟩), (31, ⟨32, 0x7FFFFFFF⟩),
      (32, ⟨32, 0xFFFFFFFF⟩)],
    ones := (0xFF, 8), zeroes := (0x00, 8) },
  { vec := "i8x16", line := 490, size := 1, width := 16,
    halfs := ⟨16, 0xFF⟩, interleave := ⟨16, 0x5555⟩,
    arms := [
      (0, ⟨16, 0x0⟩), (1, ⟨16, 0x1⟩), (2, ⟨16, 0x3⟩), (3, ⟨16, 0x7⟩),
      (4, ⟨16, 0xF⟩), (5, ⟨16, 0x1F⟩), (6, ⟨16, 0x3F⟩), (7, ⟨16, 0x7F⟩),
      (8, ⟨16, 0xFF⟩), (9, ⟨16, 0x1FF⟩), (10, ⟨16, 0x3FF⟩), (11, ⟨16, 0x7FF⟩),
      (12, ⟨16, 0xFFF⟩), (13, ⟨16, 0x1FFF⟩), (14, ⟨16, 0x3FFF⟩), (15, ⟨16, 0x7FFF⟩),
      (16, ⟨16, 0xFFFF⟩)],
    ones := (0xFF, 8), zeroes := (0x00, 8) },
  { vec := "u16x32", line := 555, size := 2, width := 32,
    halfs := ⟨32, 0xFFFF⟩, interleave := ⟨32, 0x55555555⟩,
    arms := [
      (0, ⟨32, 0x0⟩), (1, ⟨32, 0x1⟩), (2, ⟨32, 0x3⟩), (3, ⟨32, 0x7⟩),
      (4, ⟨32, 0xF⟩), (5, ⟨32, 0x1F⟩), (6, ⟨32, 0x3F⟩), (7, ⟨32, 0x7F⟩),
      (8, ⟨32, 0xFF⟩), (9, ⟨32, 0x1FF⟩), (10, ⟨32, 0x3FF⟩), (11, ⟨32, 0x7FF⟩),
      (12, ⟨32, 0xFFF⟩), (13, ⟨32, 0x1FFF⟩), (14, ⟨32, 0x3FFF⟩), (15, ⟨32, 0x7FFF⟩),
      (16, ⟨32, 0xFFFF⟩), (17, ⟨32, 0x1FFFF⟩), (18, ⟨32, 0x3FFFF⟩), (19, ⟨32, 0x7FFFF⟩),
      (20, ⟨32, 0xFFFFF⟩), (21, ⟨32, 0x1FFFFF⟩), (22, ⟨32, 0x3FFFFF⟩), (23, ⟨32, 0x7FFFFF⟩),
      (24, ⟨32, 0xFFFFFF⟩), (25, ⟨32, 0x1FFFFFF⟩), (26, ⟨32, 0x3FFFFFF⟩), (27, ⟨32, 0x7FFFFFF⟩),
      (28, ⟨32, 0xFFFFFFF⟩), (29, ⟨32, 0x1FFFFFFF⟩), (30, ⟨32, 0x3FFFFFFF⟩), (31, ⟨32, 0x7FFFFFFF⟩),
      (32, ⟨32, 0xFFFFFFFF⟩)],
    ones := (0xFFFF, 16), zeroes := (0x0000, 16) },
  { vec := "u16x16", line := 636, size := 2, width := 16,
    halfs := ⟨16, 0xFF⟩, interleave := ⟨16, 0x5555⟩,
    arms := [
      (0, ⟨16, 0x0⟩), (1, ⟨16, 0x1⟩), (2, ⟨16, 0x3⟩), (3, ⟨16, 0x7⟩),
      (4, ⟨16, 0xF⟩), (5, ⟨16, 0x1F⟩), (6, ⟨16, 0x3F⟩), (7, ⟨16, 0x7F⟩),
      (8, ⟨16, 0xFF⟩), (9, ⟨16, 0x1FF⟩), (10, ⟨16, 0x3FF⟩), (11, ⟨16, 0x7FF⟩),
      (12, ⟨16, 0xFFF⟩), (13, ⟨16, 0x1FFF⟩), (14, ⟨16, 0x3FFF⟩), (15, ⟨16, 0x7FFF⟩),
      (16, ⟨16, 0xFFFF⟩)],
    ones := (0xFFFF, 16), zeroes := (0x0000, 16) },
  { vec := "u16x8", line := 701, size := 2, width := 8,
    halfs := ⟨8, 0xF⟩, interleave := ⟨8, 0x55⟩,
    arms := [
      (0, ⟨8, 0x0⟩), (1, ⟨8, 0x1⟩), (2, ⟨8, 0x3⟩), (3, ⟨8, 0x7⟩),
      (4, ⟨8, 0xF⟩), (5, ⟨8, 0x1F⟩), (6, ⟨8, 0x3F⟩), (7, ⟨8, 0x7F⟩),
      (8, ⟨8, 0xFF⟩)],
    ones := (0xFFFF, 16), zeroes := (0x0000, 16) },
  { vec := "i16x32", line := 758, size := 2, width := 32,
    halfs := ⟨32, 0xFFFF⟩, interleave := ⟨32, 0x55555555⟩,
    arms := [
      (0, ⟨32, 0x0⟩), (1, ⟨32, 0x1⟩), (2, ⟨32, 0x3⟩), (3, ⟨32, 0x7⟩),
      (4, ⟨32, 0xF⟩), (5, ⟨32, 0x1F⟩), (6, ⟨32, 0x3F⟩), (7, ⟨32, 0x7F⟩),
      (8, ⟨32, 0xFF⟩), (9, ⟨32, 0x1FF⟩), (10, ⟨32, 0x3FF⟩), (11, ⟨32, 0x7FF⟩),
      (12, ⟨32, 0xFFF⟩), (13, ⟨32, 0x1FFF⟩), (14, ⟨32, 0x3FFF⟩), (15, ⟨32, 0x7FFF⟩),
      (16, ⟨32, 0xFFFF⟩), (17, ⟨32, 0x1FFFF⟩), (18, ⟨32, 0x3FFFF⟩), (19, ⟨32, 0x7FFFF⟩),
      (20, ⟨32, 0xFFFFF⟩), (21, ⟨32, 0x1FFFFF⟩), (22, ⟨32, 0x3FFFFF⟩), (23, ⟨32, 0x7FFFFF⟩),
      (24, ⟨32, 0xFFFFFF⟩), (25, ⟨32, 0x1FFFFFF⟩), (26, ⟨32, 0x3FFFFFF⟩), (27, ⟨32, 0x7FFFFFF⟩),
      (28, ⟨32, 0xFFFFFFF⟩), (29, ⟨32, 0x1FFFFFFF⟩), (30, ⟨32, 0x3FFFFFFF⟩), (31, ⟨32, 0x7FFFFFFF⟩),
      (32, ⟨32, 0xFFFFFFFF⟩)],
    ones := (0xFFFF, 16), zeroes := (0x0000, 16) },
  { vec := "i16x16", line := 839, size := 2, width := 16,
    halfs := ⟨16, 0xFF⟩, interleave := ⟨16, 0x5555⟩,
    arms := [
      (0, ⟨16, 0x0⟩), (1, ⟨16, 0x1⟩), (2, ⟨16, 0x3⟩), (3, ⟨16, 0x7⟩),
      (4, ⟨16, 0xF⟩), (5, ⟨16, 0x1F⟩), (6, ⟨16, 0x3F⟩), (7, ⟨16, 0x7F⟩),
      (8, ⟨16, 0xFF⟩), (9, ⟨16, 0x1FF⟩), (10, ⟨16, 0x3FF⟩), (11, ⟨16, 0x7FF⟩),
      (12, ⟨16, 0xFFF⟩), (13, ⟨16, 0x1FFF⟩), (14, ⟨16, 0x3FFF⟩), (15, ⟨16, 0x7FFF⟩),
      (16, ⟨16, 0xFFFF⟩)],
    ones := (0xFFFF, 16), zeroes := (0x0000, 16) },
  { vec := "i16x8", line := 904, size := 2, width := 8,
    halfs := ⟨8, 0xF⟩, interleave := ⟨8, 0x55⟩,
    arms := [
      (0, ⟨8, 0x0⟩), (1, ⟨8, 0x1⟩), (2, ⟨8, 0x3⟩), (3, ⟨8, 0x7⟩),
      (4, ⟨8, 0xF⟩), (5, ⟨8, 0x1F⟩), (6, ⟨8, 0x3F⟩), (7, ⟨8, 0x7F⟩),
      (8, ⟨8, 0xFF⟩)],
    ones := (0xFFFF, 16), zeroes := (0x0000, 16) },
  { vec := "u32x16", line := 961, size := 4, width := 16,
    halfs := ⟨16, 0xFF⟩, interleave := ⟨16, 0x5555⟩,
    arms := [
      (0, ⟨16, 0x0⟩), (1, ⟨16, 0x1⟩), (2, ⟨16, 0x3⟩), (3, ⟨16, 0x7⟩),
      (4, ⟨16, 0xF⟩), (5, ⟨16, 0x1F⟩), (6, ⟨16, 0x3F⟩), (7, ⟨16, 0x7F⟩),
      (8, ⟨16, 0xFF⟩), (9, ⟨16, 0x1FF⟩), (10, ⟨16, 0x3FF⟩), (11, ⟨16, 0x7FF⟩),
      (12, ⟨16, 0xFFF⟩), (13, ⟨16, 0x1FFF⟩), (14, ⟨16, 0x3FFF⟩), (15, ⟨16, 0x7FFF⟩),
      (16, ⟨16, 0xFFFF⟩)],
    ones := (0xFFFFFFFF, 32), zeroes := (0x00000000, 32) },
  { vec := "u32x8", line := 1026, size := 4, width := 8,
    halfs := ⟨8, 0xF⟩, interleave := ⟨8, 0x55⟩,
    arms := [
      (0, ⟨8, 0x0⟩), (1, ⟨8, 0x1⟩), (2, ⟨8, 0x3⟩), (3, ⟨8, 0x7⟩),
      (4, ⟨8, 0xF⟩), (5, ⟨8, 0x1F⟩), (6, ⟨8, 0x3F⟩), (7, ⟨8, 0x7F⟩),
      (8, ⟨8, 0xFF⟩)],
    ones := (0xFFFFFFFF, 32), zeroes := (0x00000000, 32) },
  { vec := "u32x4", line := 1083, size := 4, width := 4,
    halfs := ⟨4, 0x3⟩, interleave := ⟨4, 0x5⟩,
    arms := [
      (0, ⟨4, 0x0⟩), (1, ⟨4, 0x1⟩), (2, ⟨4, 0x3⟩), (3, ⟨4, 0x7⟩),
      (4, ⟨4, 0xF⟩)],
    ones := (0xFFFFFFFF, 32), zeroes := (0x00000000, 32) },
  { vec := "i32x16", line := 1136, size := 4, width := 16,
    halfs := ⟨16, 0xFF⟩, interleave := ⟨16, 0x5555⟩,
    arms := [
      (0, ⟨16, 0x0⟩), (1, ⟨16, 0x1⟩), (2, ⟨16, 0x3⟩), (3, ⟨16, 0x7⟩),
      (4, ⟨16, 0xF⟩), (5, ⟨16, 0x1F⟩), (6, ⟨16, 0x3F⟩), (7, ⟨16, 0x7F⟩),
      (8, ⟨16, 0xFF⟩), (9, ⟨16, 0x1FF⟩), (10, ⟨16, 0x3FF⟩), (11, ⟨16, 0x7FF⟩),
      (12, ⟨16, 0xFFF⟩), (13, ⟨16, 0x1FFF⟩), (14, ⟨16, 0x3FFF⟩), (15, ⟨16, 0x7FFF⟩),
      (16, ⟨16, 0xFFFF⟩)],
    ones := (0xFFFFFFFF, 32), zeroes := (0x00000000, 32) },
  { vec := "i32x8", line := 1201, size := 4, width := 8,
    halfs := ⟨8, 0xF⟩, interleave := ⟨8, 0x55⟩,
    arms := [
      (0, ⟨8, 0x0⟩), (1, ⟨8, 0x1⟩), (2, ⟨8, 0x3⟩), (3, ⟨8, 0x7⟩),
      (4, ⟨8, 0xF⟩), (5, ⟨8, 0x1F⟩), (6, ⟨8, 0x3F⟩), (7, ⟨8, 0x7F⟩),
      (8, ⟨8, 0xFF⟩)],
    ones := (0xFFFFFFFF, 32), zeroes := (0x00000000, 32) },
  { vec := "i32x4", line := 1258, size := 4, width := 4,
    halfs := ⟨4, 0x3⟩, interleave := ⟨4, 0x5⟩,
    arms := [
      (0, ⟨4, 0x0⟩), (1, ⟨4, 0x1⟩), (2, ⟨4, 0x3⟩), (3, ⟨4, 0x7⟩),
      (4, ⟨4, 0xF⟩)],
    ones := (0xFFFFFFFF, 32), zeroes := (0x00000000, 32) },
  { vec := "f32x16", line := 1311, size := 4, width := 16,
    halfs := ⟨16, 0xFF⟩, interleave := ⟨16, 0x5555⟩,
    arms := [
      (0, ⟨16, 0x0⟩), (1, ⟨16, 0x1⟩), (2, ⟨16, 0x3⟩), (3, ⟨16, 0x7⟩),
      (4, ⟨16, 0xF⟩), (5, ⟨16, 0x1F⟩), (6, ⟨16, 0x3F⟩), (7, ⟨16, 0x7F⟩),
      (8, ⟨16, 0xFF⟩), (9, ⟨16, 0x1FF⟩), (10, ⟨16, 0x3FF⟩), (11, ⟨16, 0x7FF⟩),
      (12, ⟨16, 0xFFF⟩), (13, ⟨16, 0x1FFF⟩), (14, ⟨16, 0x3FFF⟩), (15, ⟨16, 0x7FFF⟩),
      (16, ⟨16, 0xFFFF⟩)],
    ones := (0xFFFFFFFF, 32), zeroes := (0x00000000, 32) },
  { vec := "f32x8", line := 1376, size := 4, width := 8,
    halfs := ⟨8, 0xF⟩, interleave := ⟨8, 0x55⟩,
    arms := [
      (0, ⟨8, 0x0⟩), (1, ⟨8, 0x1⟩), (2, ⟨8, 0x3⟩), (3, ⟨8, 0x7⟩),
      (4, ⟨8, 0xF⟩), (5, ⟨8, 0x1F⟩), (6, ⟨8, 0x3F⟩), (7, ⟨8, 0x7F⟩),
      (8, ⟨8, 0xFF⟩)],
    ones := (0xFFFFFFFF, 32), zeroes := (0x00000000, 32) },
  { vec := "f32x4", line := 1433, size := 4, width := 4,
    halfs := ⟨4, 0x3⟩, interleave := ⟨4, 0x5⟩,
    arms := [
      (0, ⟨4, 0x0⟩), (1, ⟨4, 0x1⟩), (2, ⟨4, 0x3⟩), (3, ⟨4, 0x7⟩),
      (4, ⟨4, 0xF⟩)],
    ones := (0xFFFFFFFF, 32), zeroes := (0x00000000, 32) },
  { vec := "u64x8", line := 1486, size := 8, width := 8,
    halfs := ⟨8, 0xF⟩, interleave := ⟨8, 0x55⟩,
    arms := [
      (0, ⟨8, 0x0⟩), (1, ⟨8, 0x1⟩), (2, ⟨8, 0x3⟩), (3, ⟨8, 0x7⟩),
      (4, ⟨8, 0xF⟩), (5, ⟨8, 0x1F⟩), (6, ⟨8, 0x3F⟩), (7, ⟨8, 0x7F⟩),
      (8, ⟨8, 0xFF⟩)],
    ones := (0xFFFFFFFFFFFFFFFF, 64), zeroes := (0x0000000000000000, 64) },
  { vec := "u64x4", line := 1543, size := 8, width := 4,
    halfs := ⟨4, 0x3⟩, interleave := ⟨4, 0x5⟩,
    arms := [
      (0, ⟨4, 0x0⟩), (1, ⟨4, 0x1⟩), (2, ⟨4, 0x3⟩), (3, ⟨4, 0x7⟩),
      (4, ⟨4, 0xF⟩)],
    ones := (0xFFFFFFFFFFFFFFFF, 64), zeroes := (0x0000000000000000, 64) },
  { vec := "u64x2", line := 1596, size := 8, width := 2,
    halfs := ⟨2, 0x1⟩, interleave := ⟨2, 0x1⟩,
    arms := [
      (0, ⟨2, 0x0⟩), (1, ⟨2, 0x1⟩), (2, ⟨2, 0x3⟩)],
    ones := (0xFFFFFFFFFFFFFFFF, 64), zeroes := (0x0000000000000000, 64) },
  { vec := "i64x8", line := 1647, size := 8, width := 8,
    halfs := ⟨8, 0xF⟩, interleave := ⟨8, 0x55⟩,
    arms := [
      (0, ⟨8, 0x0⟩), (1, ⟨8, 0x1⟩), (2, ⟨8, 0x3⟩), (3, ⟨8, 0x7⟩),
      (4, ⟨8, 0xF⟩), (5, ⟨8, 0x1F⟩), (6, ⟨8, 0x3F⟩), (7, ⟨8, 0x7F⟩),
      (8, ⟨8, 0xFF⟩)],
    ones := (0xFFFFFFFFFFFFFFFF, 64), zeroes := (0x0000000000000000, 64) },
  { vec := "i64x4", line := 1704, size := 8, width := 4,
    halfs := ⟨4, 0x3⟩, interleave := ⟨4, 0x5⟩,
    arms := [
      (0, ⟨4, 0x0⟩), (1, ⟨4, 0x1⟩), (2, ⟨4, 0x3⟩), (3, ⟨4, 0x7⟩),
      (4, ⟨4, 0xF⟩)],
    ones := (0xFFFFFFFFFFFFFFFF, 64), zeroes := (0x0000000000000000, 64) },
  { vec := "i64x2", line := 1757, size := 8, width := 2,
    halfs := ⟨2, 0x1⟩, interleave := ⟨2, 0x1⟩,
    arms := [
      (0, ⟨2, 0x0⟩), (1, ⟨2, 0x1⟩), (2, ⟨2, 0x3⟩)],
    ones := (0xFFFFFFFFFFFFFFFF, 64), zeroes := (0x0000000000000000, 64) },
  { vec := "f64x8", line := 1808, size := 8, width := 8,
    halfs := ⟨8, 0xF⟩, interleave := ⟨8, 0x55⟩,
    arms := [
      (0, ⟨8, 0x0⟩), (1, ⟨8, 0x1⟩), (2, ⟨8, 0x3⟩), (3, ⟨8, 0x7⟩),
      (4, ⟨8, 0xF⟩), (5, ⟨8, 0x1F⟩), (6, ⟨8, 0x3F⟩), (7, ⟨8, 0x7F⟩),
      (8, ⟨8, 0xFF⟩)],
    ones := (0xFFFFFFFFFFFFFFFF, 64), zeroes := (0x0000000000000000, 64) },
  { vec := "f64x4", line := 1865, size := 8, width := 4,
    halfs := ⟨4, 0x3⟩, interleave := ⟨4, 0x5⟩,
    arms := [
      (0, ⟨4, 0x0⟩), (1, ⟨4, 0x1⟩), (2, ⟨4, 0x3⟩), (3, ⟨4, 0x7⟩),
      (4, ⟨4, 0xF⟩)],
    ones := (0xFFFFFFFFFFFFFFFF, 64), zeroes := (0x0000000000000000, 64) },
  { vec := "f64x2", line := 1918, size := 8, width := 2,
    halfs := ⟨2, 0x1⟩, interleave := ⟨2, 0x1⟩,
    arms := [
      (0, ⟨2, 0x0⟩), (1, ⟨2, 0x1⟩), (2, ⟨2, 0x3⟩)],
    ones := (0xFFFFFFFFFFFFFFFF, 64), zeroes := (0x0000000000000000, 64) }]

/-- `PART_MASK` (src/arch/unknown/vec_patterns.rs). -/
def partMaskBytesUnknown : List Nat := [
  0, 0, 0, 0, 0, 0, 0, 0, 0, 0, 0, 0, 0, 0, 0, 0,
  0, 0, 0, 0, 0, 0, 0, 0, 0, 0, 0, 0, 0, 0, 0, 0,
  0, 0, 0, 0, 0, 0, 0, 0, 0, 0, 0, 0, 0, 0, 0, 0,
  0, 0, 0, 0, 0, 0, 0, 0, 0, 0, 0, 0, 0, 0, 0, 0,
  255, 255, 255, 255, 255, 255, 255, 255, 255, 255, 255, 255, 255, 255, 255, 255,
  255, 255, 255, 255, 255, 255, 255, 255, 255, 255, 255, 255, 255, 255, 255, 255,
  255, 255, 255, 255, 255, 255, 255, 255, 255, 255, 255, 255, 255, 255, 255, 255,
  255, 255, 255, 255, 255, 255, 255, 255, 255, 255, 255, 255, 255, 255, 255, 255]

/-- The pattern constructors of src/arch/unknown/vec_patterns.rs. -/
def patternRowsUnknown : List PatternRow := [
  { vec := "u8x16", line := 37, size := 1, width := 16,
    halfs := ⟨16, 0xFF⟩, interleave := ⟨16, 0x5555⟩,
    arms := [
      (0, ⟨16, 0x0⟩), (1, ⟨16, 0x1⟩), (2, ⟨16, 0x3⟩), (3, ⟨16, 0x7⟩),
      (4, ⟨16, 0xF⟩), (5, ⟨16, 0x1F⟩), (6, ⟨16, 0x3F⟩), (7, ⟨16, 0x7F⟩),
      (8, ⟨16, 0xFF⟩), (9, ⟨16, 0x1FF⟩), (10, ⟨16, 0x3FF⟩), (11, ⟨16, 0x7FF⟩),
      (12, ⟨16, 0xFFF⟩), (13, ⟨16, 0x1FFF⟩), (14, ⟨16, 0x3FFF⟩), (15, ⟨16, 0x7FFF⟩),
      (16, ⟨16, 0xFFFF⟩)],
    ones := (0xFF, 8), zeroes := (0x00, 8) },
  { vec := "i8x16", line := 102, size := 1, width := 16,
    halfs := ⟨16, 0xFF⟩, interleave := ⟨16, 0x5555⟩,
    arms := [
      (0, ⟨16, 0x0⟩), (1, ⟨16, 0x1⟩), (2, ⟨16, 0x3⟩), (3, ⟨16, 0x7⟩),
      (4, ⟨16, 0xF⟩), (5, ⟨16, 0x1F⟩), (6, ⟨16, 0x3F⟩), (7, ⟨16, 0x7F⟩),
      (8, ⟨16, 0xFF⟩), (9, ⟨16, 0x1FF⟩), (10, ⟨16, 0x3FF⟩), (11, ⟨16, 0x7FF⟩),
      (12, ⟨16, 0xFFF⟩), (13, ⟨16, 0x1FFF⟩), (14, ⟨16, 0x3FFF⟩), (15, ⟨16, 0x7FFF⟩),
      (16, ⟨16, 0xFFFF⟩)],
    ones := (0xFF, 8), zeroes := (0x00, 8) },
  { vec := "u16x8", line := 167, size := 2, width := 8,
    halfs := ⟨8, 0xF⟩, interleave := ⟨8, 0x55⟩,
    arms := [
      (0, ⟨8, 0x0⟩), (1, ⟨8, 0x1⟩), (2, ⟨8, 0x3⟩), (3, ⟨8, 0x7⟩),
      (4, ⟨8, 0xF⟩), (5, ⟨8, 0x1F⟩), (6, ⟨8, 0x3F⟩), (7, ⟨8, 0x7F⟩),
      (8, ⟨8, 0xFF⟩)],
    ones := (0xFFFF, 16), zeroes := (0x0000, 16) },
  { vec := "i16x8", line := 224, size := 2, width := 8,
    halfs := ⟨8, 0xF⟩, interleave := ⟨8, 0x55⟩,
    arms := [
      (0, ⟨8, 0x0⟩), (1, ⟨8, 0x1⟩), (2, ⟨8, 0x3⟩), (3, ⟨8, 0x7⟩),
      (4, ⟨8, 0xF⟩), (5, ⟨8, 0x1F⟩), (6, ⟨8, 0x3F⟩), (7, ⟨8, 0x7F⟩),
      (8, ⟨8, 0xFF⟩)],
    ones := (0xFFFF, 16), zeroes := (0x0000, 16) },
  { vec := "u32x4", line := 281, size := 4, width := 4,
    halfs := ⟨4, 0x3⟩, interleave := ⟨4, 0x5⟩,
    arms := [
      (0, ⟨4, 0x0⟩), (1, ⟨4, 0x1⟩), (2, ⟨4, 0x3⟩), (3, ⟨4, 0x7⟩),
      (4, ⟨4, 0xF⟩)],
    ones := (0xFFFFFFFF, 32), zeroes := (0x00000000, 32) },
  { vec := "i32x4", line := 334, size := 4, width := 4,
    halfs := ⟨4, 0x3⟩, interleave := ⟨4, 0x5⟩,
    arms := [
      (0, ⟨4, 0x0⟩), (1, ⟨4, 0x1⟩), (2, ⟨4, 0x3⟩), (3, ⟨4, 0x7⟩),
      (4, ⟨4, 0xF⟩)],
    ones := (0xFFFFFFFF, 32), zeroes := (0x00000000, 32) },
  { vec := "f32x4", line := 387, size := 4, width := 4,
    halfs := ⟨4, 0x3⟩, interleave := ⟨4, 0x5⟩,
    arms := [
      (0, ⟨4, 0x0⟩), (1, ⟨4, 0x1⟩), (2, ⟨4, 0x3⟩), (3, ⟨4, 0x7⟩),
      (4, ⟨4, 0xF⟩)],
    ones := (0xFFFFFFFF, 32), zeroes := (0x00000000, 32) },
  { vec := "u64x2", line := 440, size := 8, width := 2,
    halfs := ⟨2, 0x1⟩, interleave := ⟨2, 0x1⟩,
    arms := [
      (0, ⟨2, 0x0⟩), (1, ⟨2, 0x1⟩), (2, ⟨2, 0x3⟩)],
    ones := (0xFFFFFFFFFFFFFFFF, 64), zeroes := (0x0000000000000000, 64) },
  { vec := "i64x2", line := 491, size := 8, width := 2,
    halfs := ⟨2, 0x1⟩, interleave := ⟨2, 0x1⟩,
    arms := [
      (0, ⟨2, 0x0⟩), (1, ⟨2, 0x1⟩), (2, ⟨2, 0x3⟩)],
    ones := (0xFFFFFFFFFFFFFFFF, 64), zeroes := (0x0000000000000000, 64) },
  { vec := "f64x2", line := 542, size := 8, width := 2,
    halfs := ⟨2, 0x1⟩, interleave := ⟨2, 0x1⟩,
    arms := [
      (0, ⟨2, 0x0⟩), (1, ⟨2, 0x1⟩), (2, ⟨2, 0x3⟩)],
    ones := (0xFFFFFFFFFFFFFFFF, 64), zeroes := (0x0000000000000000, 64) }]

end Faster
