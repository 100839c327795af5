import Verif.Intrin.ArithTables
/-
Tables of vector types, extracted from the Rust sources by `tools/gen_tables.py`.
Do not edit by hand.
-/
namespace Faster

/-- `impl_packed!($el, $elvec, $vec, size, width, [$feat], [$nfeat])`: implements
`Packed` for `$vec`; `$elvec` names `$vec` and `$vec` is the vector type of `$el`
if all features in `on` and none in `off` are enabled. `elSize`, `lanes`: bytes and
lanes according to the type names. -/
structure PackedRow where
  el : String
  alias : String
  vec : String
  line : Nat
  elSize : Nat
  lanes : Nat
  size : Nat
  width : Nat
  on : List String
  off : List String
  deriving DecidableEq

/-- `impl_packed_type!($el, _, $vec, width, [params])`. `lanes`: according to the
name of the vector. `params`: numbers of the parameters of `new`. -/
structure SoftRow where
  el : String
  vec : String
  line : Nat
  elSize : Nat
  vecSize : Nat
  lanes : Nat
  width : Nat
  params : List Nat

/-- Operators. -/
inductive Oper | mul | div | add | sub | shl | shr | rem | and | or | xor
  deriving DecidableEq, Repr

/-- `impl_ops!` and `impl_assignops!`: pairs of the trait implemented and the
scalar operator used for it. -/
structure SoftOpRow where
  el : String
  vec : String
  line : Nat
  kind : Kind
  ops : List (Oper × Oper)

/-- `impl_cast!($vec, $to, $el, $name)`. -/
structure SoftCastRow where
  vec : String
  to : String
  el : String
  name : String
  line : Nat
  lanes : Nat
  toLanes : Nat

/-- `impl_packed!` instances in src/arch/x86/vecs.rs. -/
def packedRows : List PackedRow := [
  { el := "u8", alias := "u8s", vec := "u8x64", line := 4, elSize := 1,
    lanes := 64, size := 1, width := 64, on := ["avx512"], off := ["avx1024"] },
  { el := "u8", alias := "u8s", vec := "u8x32", line := 5, elSize := 1,
    lanes := 32, size := 1, width := 32, on := ["avx2"], off := ["avx512"] },
  { el := "u8", alias := "u8s", vec := "u8x16", line := 6, elSize := 1,
    lanes := 16, size := 1, width := 16, on := [], off := ["avx2"] },
  { el := "i8", alias := "i8s", vec := "i8x64", line := 7, elSize := 1,
    lanes := 64, size := 1, width := 64, on := ["avx512"], off := ["avx1024"] },
  { el := "i8", alias := "i8s", vec := "i8x32", line := 8, elSize := 1,
    lanes := 32, size := 1, width := 32, on := ["avx2"], off := ["avx512"] },
  { el := "i8", alias := "i8s", vec := "i8x16", line := 9, elSize := 1,
    lanes := 16, size := 1, width := 16, on := [], off := ["avx2"] },
  { el := "u16", alias := "u16s", vec := "u16x32", line := 10, elSize := 2,
    lanes := 32, size := 2, width := 32, on := ["avx512"], off := ["avx1024"] },
  { el := "u16", alias := "u16s", vec := "u16x16", line := 11, elSize := 2,
    lanes := 16, size := 2, width := 16, on := ["avx2"], off := ["avx512"] },
  { el := "u16", alias := "u16s", vec := "u16x8", line := 12, elSize := 2,
    lanes := 8, size := 2, width := 8, on := [], off := ["avx2"] },
  { el := "i16", alias := "i16s", vec := "i16x32", line := 13, elSize := 2,
    lanes := 32, size := 2, width := 32, on := ["avx512"], off := ["avx1024"] },
  { el := "i16", alias := "i16s", vec := "i16x16", line := 14, elSize := 2,
    lanes := 16, size := 2, width := 16, on := ["avx2"], off := ["avx512"] },
  { el := "i16", alias := "i16s", vec := "i16x8", line := 15, elSize := 2,
    lanes := 8, size := 2, width := 8, on := [], off := ["avx2"] },
  { el := "u32", alias := "u32s", vec := "u32x16", line := 16, elSize := 4,
    lanes := 16, size := 4, width := 16, on := ["avx512"], off := ["avx1024"] },
  { el := "u32", alias := "u32s", vec := "u32x8", line := 17, elSize := 4,
    lanes := 8, size := 4, width := 8, on := ["avx2"], off := ["avx512"] },
  { el := "u32", alias := "u32s", vec := "u32x4", line := 18, elSize := 4,
    lanes := 4, size := 4, width := 4, on := [], off := ["avx2"] },
  { el := "i32", alias := "i32s", vec := "i32x16", line := 19, elSize := 4,
    lanes := 16, size := 4, width := 16, on := ["avx512"], off := ["avx1024"] },
  { el := "i32", alias := "i32s", vec := "i32x8", line := 20, elSize := 4,
    lanes := 8, size := 4, width := 8, on := ["avx2"], off := ["avx512"] },
  { el := "i32", alias := "i32s", vec := "i32x4", line := 21, elSize := 4,
    lanes := 4, size := 4, width := 4, on := [], off := ["avx2"] },
  { el := "f32", alias := "f32s", vec := "f32x16", line := 22, elSize := 4,
    lanes := 16, size := 4, width := 16, on := ["avx512"], off := ["avx1024"] },
  { el := "f32", alias := "f32s", vec := "f32x8", line := 23, elSize := 4,
    lanes := 8, size := 4, width := 8, on := ["avx2"], off := ["avx512"] },
  { el := "f32", alias := "f32s", vec := "f32x4", line := 24, elSize := 4,
    lanes := 4, size := 4, width := 4, on := [], off := ["avx2"] },
  { el := "u64", alias := "u64s", vec := "u64x8", line := 25, elSize := 8,
    lanes := 8, size := 8, width := 8, on := ["avx512"], off := ["avx1024"] },
  { el := "u64", alias := "u64s", vec := "u64x4", line := 26, elSize := 8,
    lanes := 4, size := 8, width := 4, on := ["avx2"], off := ["avx512"] },
  { el := "u64", alias := "u64s", vec := "u64x2", line := 27, elSize := 8,
    lanes := 2, size := 8, width := 2, on := [], off := ["avx2"] },
  { el := "i64", alias := "i64s", vec := "i64x8", line := 28, elSize := 8,
    lanes := 8, size := 8, width := 8, on := ["avx512"], off := ["avx1024"] },
  { el := "i64", alias := "i64s", vec := "i64x4", line := 29, elSize := 8,
    lanes := 4, size := 8, width := 4, on := ["avx2"], off := ["avx512"] },
  { el := "i64", alias := "i64s", vec := "i64x2", line := 30, elSize := 8,
    lanes := 2, size := 8, width := 2, on := [], off := ["avx2"] },
  { el := "f64", alias := "f64s", vec := "f64x8", line := 31, elSize := 8,
    lanes := 8, size := 8, width := 8, on := ["avx512"], off := ["avx1024"] },
  { el := "f64", alias := "f64s", vec := "f64x4", line := 32, elSize := 8,
    lanes := 4, size := 8, width := 4, on := ["avx2"], off := ["avx512"] },
  { el := "f64", alias := "f64s", vec := "f64x2", line := 33, elSize := 8,
    lanes := 2, size := 8, width := 2, on := [], off := ["avx2"] }
]

/-- `impl_packed!` instances in src/arch/unknown/vecs.rs. -/
def packedRowsUnknown : List PackedRow := [
  { el := "u8", alias := "u8s", vec := "u8x16", line := 231, elSize := 1,
    lanes := 16, size := 1, width := 16, on := [], off := ["undefined"] },
  { el := "i8", alias := "i8s", vec := "i8x16", line := 232, elSize := 1,
    lanes := 16, size := 1, width := 16, on := [], off := ["undefined"] },
  { el := "u16", alias := "u16s", vec := "u16x8", line := 233, elSize := 2,
    lanes := 8, size := 2, width := 8, on := [], off := ["undefined"] },
  { el := "i16", alias := "i16s", vec := "i16x8", line := 234, elSize := 2,
    lanes := 8, size := 2, width := 8, on := [], off := ["undefined"] },
  { el := "u32", alias := "u32s", vec := "u32x4", line := 235, elSize := 4,
    lanes := 4, size := 4, width := 4, on := [], off := ["undefined"] },
  { el := "i32", alias := "i32s", vec := "i32x4", line := 236, elSize := 4,
    lanes := 4, size := 4, width := 4, on := [], off := ["undefined"] },
  { el := "f32", alias := "f32s", vec := "f32x4", line := 237, elSize := 4,
    lanes := 4, size := 4, width := 4, on := [], off := ["undefined"] },
  { el := "u64", alias := "u64s", vec := "u64x2", line := 238, elSize := 8,
    lanes := 2, size := 8, width := 2, on := [], off := ["undefined"] },
  { el := "i64", alias := "i64s", vec := "i64x2", line := 239, elSize := 8,
    lanes := 2, size := 8, width := 2, on := [], off := ["undefined"] },
  { el := "f64", alias := "f64s", vec := "f64x2", line := 240, elSize := 8,
    lanes := 2, size := 8, width := 2, on := [], off := ["undefined"] }
]

/-- `impl_packed_type!` instances in src/arch/unknown/vecs.rs. -/
def softRows : List SoftRow := [
  { el := "f64", vec := "f64x2", line := 242, elSize := 8, vecSize := 8,
    lanes := 2, width := 2, params := [0, 1] },
  { el := "f64", vec := "f64x4", line := 243, elSize := 8, vecSize := 8,
    lanes := 4, width := 4, params := [0, 1, 2, 3] },
  { el := "f64", vec := "f64x8", line := 244, elSize := 8, vecSize := 8,
    lanes := 8, width := 8, params := [0, 1, 2, 3, 4, 5, 6, 7] },
  { el := "u64", vec := "u64x2", line := 245, elSize := 8, vecSize := 8,
    lanes := 2, width := 2, params := [0, 1] },
  { el := "u64", vec := "u64x4", line := 246, elSize := 8, vecSize := 8,
    lanes := 4, width := 4, params := [0, 1, 2, 3] },
  { el := "u64", vec := "u64x8", line := 247, elSize := 8, vecSize := 8,
    lanes := 8, width := 8, params := [0, 1, 2, 3, 4, 5, 6, 7] },
  { el := "i64", vec := "i64x2", line := 248, elSize := 8, vecSize := 8,
    lanes := 2, width := 2, params := [0, 1] },
  { el := "i64", vec := "i64x4", line := 249, elSize := 8, vecSize := 8,
    lanes := 4, width := 4, params := [0, 1, 2, 3] },
  { el := "i64", vec := "i64x8", line := 250, elSize := 8, vecSize := 8,
    lanes := 8, width := 8, params := [0, 1, 2, 3, 4, 5, 6, 7] },
  { el := "f32", vec := "f32x4", line := 251, elSize := 4, vecSize := 4,
    lanes := 4, width := 4, params := [0, 1, 2, 3] },
  { el := "f32", vec := "f32x8", line := 252, elSize := 4, vecSize := 4,
    lanes := 8, width := 8, params := [0, 1, 2, 3, 4, 5, 6, 7] },
  { el := "f32", vec := "f32x16", line := 253, elSize := 4, vecSize := 4,
    lanes := 16, width := 16, params := [0, 1, 2, 3, 4, 5, 6, 7, 8, 9, 10, 11, 12, 13, 14, 15] },
  { el := "u32", vec := "u32x4", line := 254, elSize := 4, vecSize := 4,
    lanes := 4, width := 4, params := [0, 1, 2, 3] },
  { el := "u32", vec := "u32x8", line := 255, elSize := 4, vecSize := 4,
    lanes := 8, width := 8, params := [0, 1, 2, 3, 4, 5, 6, 7] },
  { el := "u32", vec := "u32x16", line := 256, elSize := 4, vecSize := 4,
    lanes := 16, width := 16, params := [0, 1, 2, 3, 4, 5, 6, 7, 8, 9, 10, 11, 12, 13, 14, 15] },
  { el := "i32", vec := "i32x4", line := 257, elSize := 4, vecSize := 4,
    lanes := 4, width := 4, params := [0, 1, 2, 3] },
  { el := "i32", vec := "i32x8", line := 258, elSize := 4, vecSize := 4,
    lanes := 8, width := 8, params := [0, 1, 2, 3, 4, 5, 6, 7] },
  { el := "i32", vec := "i32x16", line := 259, elSize := 4, vecSize := 4,
    lanes := 16, width := 16, params := [0, 1, 2, 3, 4, 5, 6, 7, 8, 9, 10, 11, 12, 13, 14, 15] },
  { el := "u16", vec := "u16x8", line := 260, elSize := 2, vecSize := 2,
    lanes := 8, width := 8, params := [0, 1, 2, 3, 4, 5, 6, 7] },
  { el := "u16", vec := "u16x16", line := 261, elSize := 2, vecSize := 2,
    lanes := 16, width := 16, params := [0, 1, 2, 3, 4, 5, 6, 7, 8, 9, 10, 11, 12, 13, 14, 15] },
  { el := "u16", vec := "u16x32", line := 262, elSize := 2, vecSize := 2,
    lanes := 32, width := 32, params := [0, 1, 2, 3, 4, 5, 6, 7, 8, 9, 10, 11, 12, 13, 14, 15, 16, 17, 18, 19, 20, 21, 22, 23, 24, 25, 26, 27, 28, 29, 30, 31] },
  { el := "i16", vec := "i16x8", line := 263, elSize := 2, vecSize := 2,
    lanes := 8, width := 8, params := [0, 1, 2, 3, 4, 5, 6, 7] },
  { el := "i16", vec := "i16x16", line := 264, elSize := 2, vecSize := 2,
    lanes := 16, width := 16, params := [0, 1, 2, 3, 4, 5, 6, 7, 8, 9, 10, 11, 12, 13, 14, 15] },
  { el := "i16", vec := "i16x32", line := 265, elSize := 2, vecSize := 2,
    lanes := 32, width := 32, params := [0, 1, 2, 3, 4, 5, 6, 7, 8, 9, 10, 11, 12, 13, 14, 15, 16, 17, 18, 19, 20, 21, 22, 23, 24, 25, 26, 27, 28, 29, 30, 31] },
  { el := "u8", vec := "u8x16", line := 266, elSize := 1, vecSize := 1,
    lanes := 16, width := 16, params := [0, 1, 2, 3, 4, 5, 6, 7, 8, 9, 10, 11, 12, 13, 14, 15] },
  { el := "u8", vec := "u8x32", line := 267, elSize := 1, vecSize := 1,
    lanes := 32, width := 32, params := [0, 1, 2, 3, 4, 5, 6, 7, 8, 9, 10, 11, 12, 13, 14, 15, 16, 17, 18, 19, 20, 21, 22, 23, 24, 25, 26, 27, 28, 29, 30, 31] },
  { el := "u8", vec := "u8x64", line := 268, elSize := 1, vecSize := 1,
    lanes := 64, width := 64, params := [0, 1, 2, 3, 4, 5, 6, 7, 8, 9, 10, 11, 12, 13, 14, 15, 16, 17, 18, 19, 20, 21, 22, 23, 24, 25, 26, 27, 28, 29, 30, 31, 32, 33, 34, 35, 36, 37, 38, 39, 40, 41, 42, 43, 44, 45, 46, 47, 48, 49, 50, 51, 52, 53, 54, 55, 56, 57, 58, 59, 60, 61, 62, 63] },
  { el := "i8", vec := "i8x16", line := 269, elSize := 1, vecSize := 1,
    lanes := 16, width := 16, params := [0, 1, 2, 3, 4, 5, 6, 7, 8, 9, 10, 11, 12, 13, 14, 15] },
  { el := "i8", vec := "i8x32", line := 270, elSize := 1, vecSize := 1,
    lanes := 32, width := 32, params := [0, 1, 2, 3, 4, 5, 6, 7, 8, 9, 10, 11, 12, 13, 14, 15, 16, 17, 18, 19, 20, 21, 22, 23, 24, 25, 26, 27, 28, 29, 30, 31] },
  { el := "i8", vec := "i8x64", line := 271, elSize := 1, vecSize := 1,
    lanes := 64, width := 64, params := [0, 1, 2, 3, 4, 5, 6, 7, 8, 9, 10, 11, 12, 13, 14, 15, 16, 17, 18, 19, 20, 21, 22, 23, 24, 25, 26, 27, 28, 29, 30, 31, 32, 33, 34, 35, 36, 37, 38, 39, 40, 41, 42, 43, 44, 45, 46, 47, 48, 49, 50, 51, 52, 53, 54, 55, 56, 57, 58, 59, 60, 61, 62, 63] }
]

/-- `impl_ops!` instances in src/arch/unknown/vecs.rs. -/
def softOps : List SoftOpRow := [
  { el := "i8", vec := "i8x16", line := 300, kind := .i,
    ops := [(.mul, .mul), (.div, .div), (.add, .add), (.sub, .sub), (.shl, .shl), (.shr, .shr), (.rem, .rem), (.and, .and), (.or, .or), (.xor, .xor)] },
  { el := "u8", vec := "u8x16", line := 303, kind := .u,
    ops := [(.mul, .mul), (.div, .div), (.add, .add), (.sub, .sub), (.shl, .shl), (.shr, .shr), (.rem, .rem), (.and, .and), (.or, .or), (.xor, .xor)] },
  { el := "i16", vec := "i16x8", line := 306, kind := .i,
    ops := [(.mul, .mul), (.div, .div), (.add, .add), (.sub, .sub), (.shl, .shl), (.shr, .shr), (.rem, .rem), (.and, .and), (.or, .or), (.xor, .xor)] },
  { el := "u16", vec := "u16x8", line := 309, kind := .u,
    ops := [(.mul, .mul), (.div, .div), (.add, .add), (.sub, .sub), (.shl, .shl), (.shr, .shr), (.rem, .rem), (.and, .and), (.or, .or), (.xor, .xor)] },
  { el := "i32", vec := "i32x4", line := 312, kind := .i,
    ops := [(.mul, .mul), (.div, .div), (.add, .add), (.sub, .sub), (.shl, .shl), (.shr, .shr), (.rem, .rem), (.and, .and), (.or, .or), (.xor, .xor)] },
  { el := "u32", vec := "u32x4", line := 315, kind := .u,
    ops := [(.mul, .mul), (.div, .div), (.add, .add), (.sub, .sub), (.shl, .shl), (.shr, .shr), (.rem, .rem), (.and, .and), (.or, .or), (.xor, .xor)] },
  { el := "f32", vec := "f32x4", line := 318, kind := .f,
    ops := [(.mul, .mul), (.div, .div), (.add, .add), (.sub, .sub)] },
  { el := "i64", vec := "i64x2", line := 319, kind := .i,
    ops := [(.mul, .mul), (.div, .div), (.add, .add), (.sub, .sub), (.shl, .shl), (.shr, .shr), (.rem, .rem), (.and, .and), (.or, .or), (.xor, .xor)] },
  { el := "u64", vec := "u64x2", line := 322, kind := .u,
    ops := [(.mul, .mul), (.div, .div), (.add, .add), (.sub, .sub), (.shl, .shl), (.shr, .shr), (.rem, .rem), (.and, .and), (.or, .or), (.xor, .xor)] },
  { el := "f64", vec := "f64x2", line := 325, kind := .f,
    ops := [(.mul, .mul), (.div, .div), (.add, .add), (.sub, .sub)] },
  { el := "i8", vec := "i8x32", line := 327, kind := .i,
    ops := [(.mul, .mul), (.div, .div), (.add, .add), (.sub, .sub), (.shl, .shl), (.shr, .shr), (.rem, .rem), (.and, .and), (.or, .or), (.xor, .xor)] },
  { el := "u8", vec := "u8x32", line := 330, kind := .u,
    ops := [(.mul, .mul), (.div, .div), (.add, .add), (.sub, .sub), (.shl, .shl), (.shr, .shr), (.rem, .rem), (.and, .and), (.or, .or), (.xor, .xor)] },
  { el := "i16", vec := "i16x16", line := 333, kind := .i,
    ops := [(.mul, .mul), (.div, .div), (.add, .add), (.sub, .sub), (.shl, .shl), (.shr, .shr), (.rem, .rem), (.and, .and), (.or, .or), (.xor, .xor)] },
  { el := "u16", vec := "u16x16", line := 336, kind := .u,
    ops := [(.mul, .mul), (.div, .div), (.add, .add), (.sub, .sub), (.shl, .shl), (.shr, .shr), (.rem, .rem), (.and, .and), (.or, .or), (.xor, .xor)] },
  { el := "i32", vec := "i32x8", line := 339, kind := .i,
    ops := [(.mul, .mul), (.div, .div), (.add, .add), (.sub, .sub), (.shl, .shl), (.shr, .shr), (.rem, .rem), (.and, .and), (.or, .or), (.xor, .xor)] },
  { el := "u32", vec := "u32x8", line := 342, kind := .u,
    ops := [(.mul, .mul), (.div, .div), (.add, .add), (.sub, .sub), (.shl, .shl), (.shr, .shr), (.rem, .rem), (.and, .and), (.or, .or), (.xor, .xor)] },
  { el := "f32", vec := "f32x8", line := 345, kind := .f,
    ops := [(.mul, .mul), (.div, .div), (.add, .add), (.sub, .sub)] },
  { el := "i64", vec := "i64x4", line := 346, kind := .i,
    ops := [(.mul, .mul), (.div, .div), (.add, .add), (.sub, .sub), (.shl, .shl), (.shr, .shr), (.rem, .rem), (.and, .and), (.or, .or), (.xor, .xor)] },
  { el := "u64", vec := "u64x4", line := 349, kind := .u,
    ops := [(.mul, .mul), (.div, .div), (.add, .add), (.sub, .sub), (.shl, .shl), (.shr, .shr), (.rem, .rem), (.and, .and), (.or, .or), (.xor, .xor)] },
  { el := "f64", vec := "f64x4", line := 352, kind := .f,
    ops := [(.mul, .mul), (.div, .div), (.add, .add), (.sub, .sub)] },
  { el := "i8", vec := "i8x64", line := 354, kind := .i,
    ops := [(.mul, .mul), (.div, .div), (.add, .add), (.sub, .sub), (.shl, .shl), (.shr, .shr), (.rem, .rem), (.and, .and), (.or, .or), (.xor, .xor)] },
  { el := "u8", vec := "u8x64", line := 357, kind := .u,
    ops := [(.mul, .mul), (.div, .div), (.add, .add), (.sub, .sub), (.shl, .shl), (.shr, .shr), (.rem, .rem), (.and, .and), (.or, .or), (.xor, .xor)] },
  { el := "i16", vec := "i16x32", line := 360, kind := .i,
    ops := [(.mul, .mul), (.div, .div), (.add, .add), (.sub, .sub), (.shl, .shl), (.shr, .shr), (.rem, .rem), (.and, .and), (.or, .or), (.xor, .xor)] },
  { el := "u16", vec := "u16x32", line := 363, kind := .u,
    ops := [(.mul, .mul), (.div, .div), (.add, .add), (.sub, .sub), (.shl, .shl), (.shr, .shr), (.rem, .rem), (.and, .and), (.or, .or), (.xor, .xor)] },
  { el := "i32", vec := "i32x16", line := 366, kind := .i,
    ops := [(.mul, .mul), (.div, .div), (.add, .add), (.sub, .sub), (.shl, .shl), (.shr, .shr), (.rem, .rem), (.and, .and), (.or, .or), (.xor, .xor)] },
  { el := "u32", vec := "u32x16", line := 369, kind := .u,
    ops := [(.mul, .mul), (.div, .div), (.add, .add), (.sub, .sub), (.shl, .shl), (.shr, .shr), (.rem, .rem), (.and, .and), (.or, .or), (.xor, .xor)] },
  { el := "f32", vec := "f32x16", line := 372, kind := .f,
    ops := [(.mul, .mul), (.div, .div), (.add, .add), (.sub, .sub)] },
  { el := "i64", vec := "i64x8", line := 373, kind := .i,
    ops := [(.mul, .mul), (.div, .div), (.add, .add), (.sub, .sub), (.shl, .shl), (.shr, .shr), (.rem, .rem), (.and, .and), (.or, .or), (.xor, .xor)] },
  { el := "u64", vec := "u64x8", line := 376, kind := .u,
    ops := [(.mul, .mul), (.div, .div), (.add, .add), (.sub, .sub), (.shl, .shl), (.shr, .shr), (.rem, .rem), (.and, .and), (.or, .or), (.xor, .xor)] },
  { el := "f64", vec := "f64x8", line := 379, kind := .f,
    ops := [(.mul, .mul), (.div, .div), (.add, .add), (.sub, .sub)] }
]

/-- `impl_assignops!` instances in src/arch/unknown/vecs.rs. -/
def softAssignOps : List SoftOpRow := [
  { el := "i8", vec := "i8x16", line := 381, kind := .i,
    ops := [(.mul, .mul), (.div, .div), (.add, .add), (.sub, .sub), (.shl, .shl), (.shr, .shr), (.rem, .rem), (.and, .and), (.or, .or), (.xor, .xor)] },
  { el := "u8", vec := "u8x16", line := 384, kind := .u,
    ops := [(.mul, .mul), (.div, .div), (.add, .add), (.sub, .sub), (.shl, .shl), (.shr, .shr), (.rem, .rem), (.and, .and), (.or, .or), (.xor, .xor)] },
  { el := "i16", vec := "i16x8", line := 387, kind := .i,
    ops := [(.mul, .mul), (.div, .div), (.add, .add), (.sub, .sub), (.shl, .shl), (.shr, .shr), (.rem, .rem), (.and, .and), (.or, .or), (.xor, .xor)] },
  { el := "u16", vec := "u16x8", line := 390, kind := .u,
    ops := [(.mul, .mul), (.div, .div), (.add, .add), (.sub, .sub), (.shl, .shl), (.shr, .shr), (.rem, .rem), (.and, .and), (.or, .or), (.xor, .xor)] },
  { el := "i32", vec := "i32x4", line := 393, kind := .i,
    ops := [(.mul, .mul), (.div, .div), (.add, .add), (.sub, .sub), (.shl, .shl), (.shr, .shr), (.rem, .rem), (.and, .and), (.or, .or), (.xor, .xor)] },
  { el := "u32", vec := "u32x4", line := 396, kind := .u,
    ops := [(.mul, .mul), (.div, .div), (.add, .add), (.sub, .sub), (.shl, .shl), (.shr, .shr), (.rem, .rem), (.and, .and), (.or, .or), (.xor, .xor)] },
  { el := "f32", vec := "f32x4", line := 399, kind := .f,
    ops := [(.mul, .mul), (.div, .div), (.add, .add), (.sub, .sub)] },
  { el := "i64", vec := "i64x2", line := 400, kind := .i,
    ops := [(.mul, .mul), (.div, .div), (.add, .add), (.sub, .sub), (.shl, .shl), (.shr, .shr), (.rem, .rem), (.and, .and), (.or, .or), (.xor, .xor)] },
  { el := "u64", vec := "u64x2", line := 403, kind := .u,
    ops := [(.mul, .mul), (.div, .div), (.add, .add), (.sub, .sub), (.shl, .shl), (.shr, .shr), (.rem, .rem), (.and, .and), (.or, .or), (.xor, .xor)] },
  { el := "f64", vec := "f64x2", line := 406, kind := .f,
    ops := [(.mul, .mul), (.div, .div), (.add, .add), (.sub, .sub)] },
  { el := "i8", vec := "i8x32", line := 408, kind := .i,
    ops := [(.mul, .mul), (.div, .div), (.add, .add), (.sub, .sub), (.shl, .shl), (.shr, .shr), (.rem, .rem), (.and, .and), (.or, .or), (.xor, .xor)] },
  { el := "u8", vec := "u8x32", line := 411, kind := .u,
    ops := [(.mul, .mul), (.div, .div), (.add, .add), (.sub, .sub), (.shl, .shl), (.shr, .shr), (.rem, .rem), (.and, .and), (.or, .or), (.xor, .xor)] },
  { el := "i16", vec := "i16x16", line := 414, kind := .i,
    ops := [(.mul, .mul), (.div, .div), (.add, .add), (.sub, .sub), (.shl, .shl), (.shr, .shr), (.rem, .rem), (.and, .and), (.or, .or), (.xor, .xor)] },
  { el := "u16", vec := "u16x16", line := 417, kind := .u,
    ops := [(.mul, .mul), (.div, .div), (.add, .add), (.sub, .sub), (.shl, .shl), (.shr, .shr), (.rem, .rem), (.and, .and), (.or, .or), (.xor, .xor)] },
  { el := "i32", vec := "i32x8", line := 420, kind := .i,
    ops := [(.mul, .mul), (.div, .div), (.add, .add), (.sub, .sub), (.shl, .shl), (.shr, .shr), (.rem, .rem), (.and, .and), (.or, .or), (.xor, .xor)] },
  { el := "u32", vec := "u32x8", line := 423, kind := .u,
    ops := [(.mul, .mul), (.div, .div), (.add, .add), (.sub, .sub), (.shl, .shl), (.shr, .shr), (.rem, .rem), (.and, .and), (.or, .or), (.xor, .xor)] },
  { el := "f32", vec := "f32x8", line := 426, kind := .f,
    ops := [(.mul, .mul), (.div, .div), (.add, .add), (.sub, .sub)] },
  { el := "i64", vec := "i64x4", line := 427, kind := .i,
    ops := [(.mul, .mul), (.div, .div), (.add, .add), (.sub, .sub), (.shl, .shl), (.shr, .shr), (.rem, .rem), (.and, .and), (.or, .or), (.xor, .xor)] },
  { el := "u64", vec := "u64x4", line := 430, kind := .u,
    ops := [(.mul, .mul), (.div, .div), (.add, .add), (.sub, .sub), (.shl, .shl), (.shr, .shr), (.rem, .rem), (.and, .and), (.or, .or), (.xor, .xor)] },
  { el := "f64", vec := "f64x4", line := 433, kind := .f,
    ops := [(.mul, .mul), (.div, .div), (.add, .add), (.sub, .sub)] },
  { el := "i8", vec := "i8x64", line := 435, kind := .i,
    ops := [(.mul, .mul), (.div, .div), (.add, .add), (.sub, .sub), (.shl, .shl), (.shr, .shr), (.rem, .rem), (.and, .and), (.or, .or), (.xor, .xor)] },
  { el := "u8", vec := "u8x64", line := 438, kind := .u,
    ops := [(.mul, .mul), (.div, .div), (.add, .add), (.sub, .sub), (.shl, .shl), (.shr, .shr), (.rem, .rem), (.and, .and), (.or, .or), (.xor, .xor)] },
  { el := "i16", vec := "i16x32", line := 441, kind := .i,
    ops := [(.mul, .mul), (.div, .div), (.add, .add), (.sub, .sub), (.shl, .shl), (.shr, .shr), (.rem, .rem), (.and, .and), (.or, .or), (.xor, .xor)] },
  { el := "u16", vec := "u16x32", line := 444, kind := .u,
    ops := [(.mul, .mul), (.div, .div), (.add, .add), (.sub, .sub), (.shl, .shl), (.shr, .shr), (.rem, .rem), (.and, .and), (.or, .or), (.xor, .xor)] },
  { el := "i32", vec := "i32x16", line := 447, kind := .i,
    ops := [(.mul, .mul), (.div, .div), (.add, .add), (.sub, .sub), (.shl, .shl), (.shr, .shr), (.rem, .rem), (.and, .and), (.or, .or), (.xor, .xor)] },
  { el := "u32", vec := "u32x16", line := 450, kind := .u,
    ops := [(.mul, .mul), (.div, .div), (.add, .add), (.sub, .sub), (.shl, .shl), (.shr, .shr), (.rem, .rem), (.and, .and), (.or, .or), (.xor, .xor)] },
  { el := "f32", vec := "f32x16", line := 453, kind := .f,
    ops := [(.mul, .mul), (.div, .div), (.add, .add), (.sub, .sub)] },
  { el := "i64", vec := "i64x8", line := 454, kind := .i,
    ops := [(.mul, .mul), (.div, .div), (.add, .add), (.sub, .sub), (.shl, .shl), (.shr, .shr), (.rem, .rem), (.and, .and), (.or, .or), (.xor, .xor)] },
  { el := "u64", vec := "u64x8", line := 457, kind := .u,
    ops := [(.mul, .mul), (.div, .div), (.add, .add), (.sub, .sub), (.shl, .shl), (.shr, .shr), (.rem, .rem), (.and, .and), (.or, .or), (.xor, .xor)] },
  { el := "f64", vec := "f64x8", line := 460, kind := .f,
    ops := [(.mul, .mul), (.div, .div), (.add, .add), (.sub, .sub)] }
]

/-- `impl_cast!` instances in src/arch/unknown/vecs.rs. -/
def softCasts : List SoftCastRow := [
  { vec := "i8x16", to := "u8x16", el := "u8", name := "as_u8x16", line := 462, lanes := 16,
    toLanes := 16 },
  { vec := "u8x16", to := "i8x16", el := "i8", name := "as_i8x16", line := 463, lanes := 16,
    toLanes := 16 },
  { vec := "i8x32", to := "u8x32", el := "u8", name := "as_u8x32", line := 465, lanes := 32,
    toLanes := 32 },
  { vec := "u8x32", to := "i8x32", el := "i8", name := "as_i8x32", line := 466, lanes := 32,
    toLanes := 32 },
  { vec := "i8x64", to := "u8x64", el := "u8", name := "as_u8x64", line := 468, lanes := 64,
    toLanes := 64 },
  { vec := "u8x64", to := "i8x64", el := "i8", name := "as_i8x64", line := 469, lanes := 64,
    toLanes := 64 },
  { vec := "i16x8", to := "u16x8", el := "u16", name := "as_u16x8", line := 471, lanes := 8,
    toLanes := 8 },
  { vec := "u16x8", to := "i16x8", el := "i16", name := "as_i16x8", line := 472, lanes := 8,
    toLanes := 8 },
  { vec := "i16x16", to := "u16x16", el := "u16", name := "as_u16x16", line := 474, lanes := 16,
    toLanes := 16 },
  { vec := "u16x16", to := "i16x16", el := "i16", name := "as_i16x16", line := 475, lanes := 16,
    toLanes := 16 },
  { vec := "i16x32", to := "u16x32", el := "u16", name := "as_u16x32", line := 477, lanes := 32,
    toLanes := 32 },
  { vec := "u16x32", to := "i16x32", el := "i16", name := "as_i16x32", line := 478, lanes := 32,
    toLanes := 32 },
  { vec := "i32x4", to := "u32x4", el := "u32", name := "as_u32x4", line := 480, lanes := 4,
    toLanes := 4 },
  { vec := "f32x4", to := "u32x4", el := "u32", name := "as_u32x4", line := 481, lanes := 4,
    toLanes := 4 },
  { vec := "f32x4", to := "i32x4", el := "i32", name := "as_i32x4", line := 482, lanes := 4,
    toLanes := 4 },
  { vec := "u32x4", to := "i32x4", el := "i32", name := "as_i32x4", line := 483, lanes := 4,
    toLanes := 4 },
  { vec := "u32x4", to := "f32x4", el := "f32", name := "as_f32x4", line := 484, lanes := 4,
    toLanes := 4 },
  { vec := "i32x4", to := "f32x4", el := "f32", name := "as_f32x4", line := 485, lanes := 4,
    toLanes := 4 },
  { vec := "i32x8", to := "u32x8", el := "u32", name := "as_u32x8", line := 487, lanes := 8,
    toLanes := 8 },
  { vec := "f32x8", to := "u32x8", el := "u32", name := "as_u32x8", line := 488, lanes := 8,
    toLanes := 8 },
  { vec := "f32x8", to := "i32x8", el := "i32", name := "as_i32x8", line := 489, lanes := 8,
    toLanes := 8 },
  { vec := "u32x8", to := "i32x8", el := "i32", name := "as_i32x8", line := 490, lanes := 8,
    toLanes := 8 },
  { vec := "u32x8", to := "f32x8", el := "f32", name := "as_f32x8", line := 491, lanes := 8,
    toLanes := 8 },
  { vec := "i32x8", to := "f32x8", el := "f32", name := "as_f32x8", line := 492, lanes := 8,
    toLanes := 8 },
  { vec := "i32x16", to := "u32x16", el := "u32", name := "as_u32x16", line := 494, lanes := 16,
    toLanes := 16 },
  { vec := "f32x16", to := "u32x16", el := "u32", name := "as_u32x16", line := 495, lanes := 16,
    toLanes := 16 },
  { vec := "f32x16", to := "i32x16", el := "i32", name := "as_i32x16", line := 496, lanes := 16,
    toLanes := 16 },
  { vec := "u32x16", to := "i32x16", el := "i32", name := "as_i32x16", line := 497, lanes := 16,
    toLanes := 16 },
  { vec := "u32x16", to := "f32x16", el := "f32", name := "as_f32x16", line := 498, lanes := 16,
    toLanes := 16 },
  { vec := "i32x16", to := "f32x16", el := "f32", name := "as_f32x16", line := 499, lanes := 16,
    toLanes := 16 },
  { vec := "i64x2", to := "u64x2", el := "u64", name := "as_u64x2", line := 501, lanes := 2,
    toLanes := 2 },
  { vec := "f64x2", to := "u64x2", el := "u64", name := "as_u64x2", line := 502, lanes := 2,
    toLanes := 2 },
  { vec := "f64x2", to := "i64x2", el := "i64", name := "as_i64x2", line := 503, lanes := 2,
    toLanes := 2 },
  { vec := "u64x2", to := "i64x2", el := "i64", name := "as_i64x2", line := 504, lanes := 2,
    toLanes := 2 },
  { vec := "u64x2", to := "f64x2", el := "f64", name := "as_f64x2", line := 505, lanes := 2,
    toLanes := 2 },
  { vec := "i64x2", to := "f64x2", el := "f64", name := "as_f64x2", line := 506, lanes := 2,
    toLanes := 2 },
  { vec := "i64x4", to := "u64x4", el := "u64", name := "as_u64x4", line := 508, lanes := 4,
    toLanes := 4 },
  { vec := "f64x4", to := "u64x4", el := "u64", name := "as_u64x4", line := 509, lanes := 4,
    toLanes := 4 },
  { vec := "f64x4", to := "i64x4", el := "i64", name := "as_i64x4", line := 510, lanes := 4,
    toLanes := 4 },
  { vec := "u64x4", to := "i64x4", el := "i64", name := "as_i64x4", line := 511, lanes := 4,
    toLanes := 4 },
  { vec := "u64x4", to := "f64x4", el := "f64", name := "as_f64x4", line := 512, lanes := 4,
    toLanes := 4 },
  { vec := "i64x4", to := "f64x4", el := "f64", name := "as_f64x4", line := 513, lanes := 4,
    toLanes := 4 },
  { vec := "i64x8", to := "u64x8", el := "u64", name := "as_u64x8", line := 515, lanes := 8,
    toLanes := 8 },
  { vec := "f64x8", to := "u64x8", el := "u64", name := "as_u64x8", line := 516, lanes := 8,
    toLanes := 8 },
  { vec := "f64x8", to := "i64x8", el := "i64", name := "as_i64x8", line := 517, lanes := 8,
    toLanes := 8 },
  { vec := "u64x8", to := "i64x8", el := "i64", name := "as_i64x8", line := 518, lanes := 8,
    toLanes := 8 },
  { vec := "u64x8", to := "f64x8", el := "f64", name := "as_f64x8", line := 519, lanes := 8,
    toLanes := 8 },
  { vec := "i64x8", to := "f64x8", el := "f64", name := "as_f64x8", line := 520, lanes := 8,
    toLanes := 8 }
]

/-- `impl_from!` instances in src/arch/unknown/vecs.rs: target, bytes, bytes of every source. -/
def softFroms : List (String × Nat × List (String × Nat)) := [
  ("u64x2", 16, [("i64x2", 16), ("u32x4", 16), ("i32x4", 16), ("u16x8", 16), ("i16x8", 16), ("u8x16", 16), ("i8x16", 16)]),
  ("i64x2", 16, [("u64x2", 16), ("u32x4", 16), ("i32x4", 16), ("u16x8", 16), ("i16x8", 16), ("u8x16", 16), ("i8x16", 16)]),
  ("u32x4", 16, [("u64x2", 16), ("i64x2", 16), ("i32x4", 16), ("u16x8", 16), ("i16x8", 16), ("u8x16", 16), ("i8x16", 16)]),
  ("i32x4", 16, [("u64x2", 16), ("i64x2", 16), ("u32x4", 16), ("u16x8", 16), ("i16x8", 16), ("u8x16", 16), ("i8x16", 16)]),
  ("u16x8", 16, [("u64x2", 16), ("i64x2", 16), ("u32x4", 16), ("i32x4", 16), ("i16x8", 16), ("u8x16", 16), ("i8x16", 16)]),
  ("i16x8", 16, [("u64x2", 16), ("i64x2", 16), ("u32x4", 16), ("i32x4", 16), ("u16x8", 16), ("u8x16", 16), ("i8x16", 16)]),
  ("u8x16", 16, [("u64x2", 16), ("i64x2", 16), ("u32x4", 16), ("i32x4", 16), ("u16x8", 16), ("i16x8", 16), ("i8x16", 16)]),
  ("i8x16", 16, [("u64x2", 16), ("i64x2", 16), ("u32x4", 16), ("i32x4", 16), ("u16x8", 16), ("i16x8", 16), ("u8x16", 16)]),
  ("u64x4", 32, [("i64x4", 32), ("u32x8", 32), ("i32x8", 32), ("u16x16", 32), ("i16x16", 32), ("u8x32", 32), ("i8x32", 32)]),
  ("i64x4", 32, [("u64x4", 32), ("u32x8", 32), ("i32x8", 32), ("u16x16", 32), ("i16x16", 32), ("u8x32", 32), ("i8x32", 32)]),
  ("u32x8", 32, [("u64x4", 32), ("i64x4", 32), ("i32x8", 32), ("u16x16", 32), ("i16x16", 32), ("u8x32", 32), ("i8x32", 32)]),
  ("i32x8", 32, [("u64x4", 32), ("i64x4", 32), ("u32x8", 32), ("u16x16", 32), ("i16x16", 32), ("u8x32", 32), ("i8x32", 32)]),
  ("u16x16", 32, [("u64x4", 32), ("i64x4", 32), ("u32x8", 32), ("i32x8", 32), ("i16x16", 32), ("u8x32", 32), ("i8x32", 32)]),
  ("i16x16", 32, [("u64x4", 32), ("i64x4", 32), ("u32x8", 32), ("i32x8", 32), ("u16x16", 32), ("u8x32", 32), ("i8x32", 32)]),
  ("u8x32", 32, [("u64x4", 32), ("i64x4", 32), ("u32x8", 32), ("i32x8", 32), ("u16x16", 32), ("i16x16", 32), ("i8x32", 32)]),
  ("i8x32", 32, [("u64x4", 32), ("i64x4", 32), ("u32x8", 32), ("i32x8", 32), ("u16x16", 32), ("i16x16", 32), ("u8x32", 32)]),
  ("u64x8", 64, [("i64x8", 64), ("u32x16", 64), ("i32x16", 64), ("u16x32", 64), ("i16x32", 64), ("u8x64", 64), ("i8x64", 64)]),
  ("i64x8", 64, [("u64x8", 64), ("u32x16", 64), ("i32x16", 64), ("u16x32", 64), ("i16x32", 64), ("u8x64", 64), ("i8x64", 64)]),
  ("u32x16", 64, [("u64x8", 64), ("i64x8", 64), ("i32x16", 64), ("u16x32", 64), ("i16x32", 64), ("u8x64", 64), ("i8x64", 64)]),
  ("i32x16", 64, [("u64x8", 64), ("i64x8", 64), ("u32x16", 64), ("u16x32", 64), ("i16x32", 64), ("u8x64", 64), ("i8x64", 64)]),
  ("u16x32", 64, [("u64x8", 64), ("i64x8", 64), ("u32x16", 64), ("i32x16", 64), ("i16x32", 64), ("u8x64", 64), ("i8x64", 64)]),
  ("i16x32", 64, [("u64x8", 64), ("i64x8", 64), ("u32x16", 64), ("i32x16", 64), ("u16x32", 64), ("u8x64", 64), ("i8x64", 64)]),
  ("u8x64", 64, [("u64x8", 64), ("i64x8", 64), ("u32x16", 64), ("i32x16", 64), ("u16x32", 64), ("i16x32", 64), ("i8x64", 64)]),
  ("i8x64", 64, [("u64x8", 64), ("i64x8", 64), ("u32x16", 64), ("i32x16", 64), ("u16x32", 64), ("i16x32", 64), ("u8x64", 64)])
]

end Faster
