import Verif.Intrin.ArithTables
/-
Instances of `Round`, `Sqrt`, `Recip` and `Rsqrt`, extracted from the Rust sources
by `tools/gen_tables.py`. Do not edit by hand.
-/
namespace Faster

/-- Scalar float methods of the fallbacks. -/
inductive UnFn | round | ceil | floor | trunc | sqrt | recip | rsqrt
  deriving DecidableEq, Repr

/-- One method of a `rust_fallback_impl!` instance: vector type, source line, lane
kind, bytes per lane, lanes, scalar method of the fallback, feature gate,
instruction and immediate operand of the optimized version
(`_MM_FROUND_TO_NEAREST_INT` is 0, `_MM_FROUND_TRUNC` is 3, no operand is 0 too),
lane list. -/
structure UnRow where
  vec : String
  line : Nat
  kind : Kind
  size : Nat
  width : Nat
  fn : UnFn
  gate : Gate
  mm : Instr
  imm : Nat
  idx : List Nat

/-- Instances in src/arch/x86/intrin/round.rs. -/
def roundRows : List UnRow := [
  { vec := "f32x4", line := 17, kind := .f, size := 4, width := 4, fn := .round,
    gate := .sse41, mm := .mm_round_ps, imm := 0, idx := [0, 1, 2, 3] },
  { vec := "f32x4", line := 18, kind := .f, size := 4, width := 4, fn := .ceil,
    gate := .sse41, mm := .mm_ceil_ps, imm := 0, idx := [0, 1, 2, 3] },
  { vec := "f32x4", line := 19, kind := .f, size := 4, width := 4, fn := .floor,
    gate := .sse41, mm := .mm_floor_ps, imm := 0, idx := [0, 1, 2, 3] },
  { vec := "f32x4", line := 20, kind := .f, size := 4, width := 4, fn := .trunc,
    gate := .sse41, mm := .mm_round_ps, imm := 3, idx := [0, 1, 2, 3] },
  { vec := "f64x2", line := 26, kind := .f, size := 8, width := 2, fn := .round,
    gate := .sse41, mm := .mm_round_pd, imm := 0, idx := [0, 1] },
  { vec := "f64x2", line := 27, kind := .f, size := 8, width := 2, fn := .ceil,
    gate := .sse41, mm := .mm_ceil_pd, imm := 0, idx := [0, 1] },
  { vec := "f64x2", line := 28, kind := .f, size := 8, width := 2, fn := .floor,
    gate := .sse41, mm := .mm_floor_pd, imm := 0, idx := [0, 1] },
  { vec := "f64x2", line := 29, kind := .f, size := 8, width := 2, fn := .trunc,
    gate := .sse41, mm := .mm_round_pd, imm := 3, idx := [0, 1] },
  { vec := "f32x8", line := 35, kind := .f, size := 4, width := 8, fn := .round,
    gate := .avx, mm := .mm256_round_ps, imm := 0, idx := [0, 1, 2, 3, 4, 5, 6, 7] },
  { vec := "f32x8", line := 36, kind := .f, size := 4, width := 8, fn := .ceil,
    gate := .avx, mm := .mm256_ceil_ps, imm := 0, idx := [0, 1, 2, 3, 4, 5, 6, 7] },
  { vec := "f32x8", line := 37, kind := .f, size := 4, width := 8, fn := .floor,
    gate := .avx, mm := .mm256_floor_ps, imm := 0, idx := [0, 1, 2, 3, 4, 5, 6, 7] },
  { vec := "f32x8", line := 38, kind := .f, size := 4, width := 8, fn := .trunc,
    gate := .avx, mm := .mm256_round_ps, imm := 3, idx := [0, 1, 2, 3, 4, 5, 6, 7] },
  { vec := "f64x4", line := 44, kind := .f, size := 8, width := 4, fn := .round,
    gate := .sse41, mm := .mm256_round_pd, imm := 0, idx := [0, 1, 2, 3] },
  { vec := "f64x4", line := 45, kind := .f, size := 8, width := 4, fn := .ceil,
    gate := .sse41, mm := .mm256_ceil_pd, imm := 0, idx := [0, 1, 2, 3] },
  { vec := "f64x4", line := 46, kind := .f, size := 8, width := 4, fn := .floor,
    gate := .sse41, mm := .mm256_floor_pd, imm := 0, idx := [0, 1, 2, 3] },
  { vec := "f64x4", line := 47, kind := .f, size := 8, width := 4, fn := .trunc,
    gate := .sse41, mm := .mm256_round_pd, imm := 3, idx := [0, 1, 2, 3] }
]

/-- Instances in src/arch/unknown/intrin/round.rs. -/
def roundRowsUnknown : List UnRow := [
  { vec := "f32x4", line := 14, kind := .f, size := 4, width := 4, fn := .round,
    gate := .never, mm := .undefined, imm := 0, idx := [0, 1, 2, 3] },
  { vec := "f32x4", line := 15, kind := .f, size := 4, width := 4, fn := .ceil,
    gate := .never, mm := .undefined, imm := 0, idx := [0, 1, 2, 3] },
  { vec := "f32x4", line := 16, kind := .f, size := 4, width := 4, fn := .floor,
    gate := .never, mm := .undefined, imm := 0, idx := [0, 1, 2, 3] },
  { vec := "f32x4", line := 17, kind := .f, size := 4, width := 4, fn := .trunc,
    gate := .never, mm := .undefined, imm := 3, idx := [0, 1, 2, 3] },
  { vec := "f64x2", line := 23, kind := .f, size := 8, width := 2, fn := .round,
    gate := .never, mm := .undefined, imm := 0, idx := [0, 1] },
  { vec := "f64x2", line := 24, kind := .f, size := 8, width := 2, fn := .ceil,
    gate := .never, mm := .undefined, imm := 0, idx := [0, 1] },
  { vec := "f64x2", line := 25, kind := .f, size := 8, width := 2, fn := .floor,
    gate := .never, mm := .undefined, imm := 0, idx := [0, 1] },
  { vec := "f64x2", line := 26, kind := .f, size := 8, width := 2, fn := .trunc,
    gate := .never, mm := .undefined, imm := 3, idx := [0, 1] },
  { vec := "f32x8", line := 32, kind := .f, size := 4, width := 8, fn := .round,
    gate := .never, mm := .undefined, imm := 0, idx := [0, 1, 2, 3, 4, 5, 6, 7] },
  { vec := "f32x8", line := 33, kind := .f, size := 4, width := 8, fn := .ceil,
    gate := .never, mm := .undefined, imm := 0, idx := [0, 1, 2, 3, 4, 5, 6, 7] },
  { vec := "f32x8", line := 34, kind := .f, size := 4, width := 8, fn := .floor,
    gate := .never, mm := .undefined, imm := 0, idx := [0, 1, 2, 3, 4, 5, 6, 7] },
  { vec := "f32x8", line := 35, kind := .f, size := 4, width := 8, fn := .trunc,
    gate := .never, mm := .undefined, imm := 3, idx := [0, 1, 2, 3, 4, 5, 6, 7] },
  { vec := "f64x4", line := 41, kind := .f, size := 8, width := 4, fn := .round,
    gate := .never, mm := .undefined, imm := 0, idx := [0, 1, 2, 3] },
  { vec := "f64x4", line := 42, kind := .f, size := 8, width := 4, fn := .ceil,
    gate := .never, mm := .undefined, imm := 0, idx := [0, 1, 2, 3] },
  { vec := "f64x4", line := 43, kind := .f, size := 8, width := 4, fn := .floor,
    gate := .never, mm := .undefined, imm := 0, idx := [0, 1, 2, 3] },
  { vec := "f64x4", line := 44, kind := .f, size := 8, width := 4, fn := .trunc,
    gate := .never, mm := .undefined, imm := 3, idx := [0, 1, 2, 3] }
]

/-- Instances in src/arch/x86/intrin/sqrt.rs. -/
def sqrtRows : List UnRow := [
  { vec := "f32x8", line := 16, kind := .f, size := 4, width := 8, fn := .sqrt,
    gate := .avx, mm := .mm256_sqrt_ps, imm := 0, idx := [0, 1, 2, 3, 4, 5, 6, 7] },
  { vec := "f64x4", line := 22, kind := .f, size := 8, width := 4, fn := .sqrt,
    gate := .avx, mm := .mm256_sqrt_pd, imm := 0, idx := [0, 1, 2, 3] },
  { vec := "f32x4", line := 28, kind := .f, size := 4, width := 4, fn := .sqrt,
    gate := .sse, mm := .mm_sqrt_ps, imm := 0, idx := [0, 1, 2, 3] },
  { vec := "f64x2", line := 34, kind := .f, size := 8, width := 2, fn := .sqrt,
    gate := .sse2, mm := .mm_sqrt_pd, imm := 0, idx := [0, 1] }
]

/-- Instances in src/arch/unknown/intrin/sqrt.rs. -/
def sqrtRowsUnknown : List UnRow := [
  { vec := "f32x4", line := 14, kind := .f, size := 4, width := 4, fn := .sqrt,
    gate := .never, mm := .undefined, imm := 0, idx := [0, 1, 2, 3] },
  { vec := "f64x2", line := 20, kind := .f, size := 8, width := 2, fn := .sqrt,
    gate := .never, mm := .undefined, imm := 0, idx := [0, 1] }
]

/-- Instances in src/arch/x86/intrin/recip.rs. -/
def recipRows : List UnRow := [
  { vec := "f32x8", line := 16, kind := .f, size := 4, width := 8, fn := .recip,
    gate := .avx, mm := .mm256_rcp_ps, imm := 0, idx := [0, 1, 2, 3, 4, 5, 6, 7] },
  { vec := "f32x4", line := 22, kind := .f, size := 4, width := 4, fn := .recip,
    gate := .sse, mm := .mm_rcp_ps, imm := 0, idx := [0, 1, 2, 3] }
]

/-- Instances in src/arch/unknown/intrin/recip.rs. -/
def recipRowsUnknown : List UnRow := [
  { vec := "f32x4", line := 14, kind := .f, size := 4, width := 4, fn := .recip,
    gate := .never, mm := .undefined, imm := 0, idx := [0, 1, 2, 3] }
]

/-- Instances in src/arch/x86/intrin/rsqrt.rs. -/
def rsqrtRows : List UnRow := [
  { vec := "f32x8", line := 18, kind := .f, size := 4, width := 8, fn := .rsqrt,
    gate := .avx, mm := .mm256_rsqrt_ps, imm := 0, idx := [0, 1, 2, 3, 4, 5, 6, 7] },
  { vec := "f32x4", line := 24, kind := .f, size := 4, width := 4, fn := .rsqrt,
    gate := .sse, mm := .mm_rsqrt_ps, imm := 0, idx := [0, 1, 2, 3] }
]

/-- Instances in src/arch/unknown/intrin/rsqrt.rs. -/
def rsqrtRowsUnknown : List UnRow := [
  { vec := "f32x4", line := 22, kind := .f, size := 4, width := 4, fn := .rsqrt,
    gate := .never, mm := .undefined, imm := 0, idx := [0, 1, 2, 3] },
  { vec := "f64x2", line := 28, kind := .f, size := 8, width := 2, fn := .rsqrt,
    gate := .never, mm := .undefined, imm := 0, idx := [0, 1] }
]

end Faster
