import Verif.Intrin.ArithTables
/-
Implementations of the vector traits, extracted from the Rust sources by `tools/gen_impls.py`.
Do not edit by hand.
-/
namespace Faster

/-- The traits of src/intrin, src/vecs.rs and src/vec_patterns.rs which vectors implement; `helper`
stands for the functions of src/arch/x86/intrin/popcnt.rs. -/
inductive VTrait
  | abs
  | cmp
  | destride
  | downcast
  | eq
  | hAdd
  | hSub
  | helper
  | merge
  | packed
  | pattern
  | popcnt
  | recip
  | reendianize
  | round
  | rsqrt
  | saturatingAdd
  | saturatingHAdd
  | saturatingHSub
  | saturatingSub
  | sqrt
  | sum
  | transmute
  | upcast
  | upcastSum
  deriving DecidableEq, Repr

/-- Their methods. -/
inductive Meth
  | abs
  | be_f32s_unchecked
  | be_f64s_unchecked
  | be_i16s
  | be_i32s
  | be_i64s
  | be_i8s
  | be_u16s
  | be_u32s
  | be_u64s
  | be_u8s
  | ceil
  | coalesce
  | count_ones
  | default
  | destride_four
  | destride_two
  | eq_mask
  | extract
  | extract_unchecked
  | floor
  | hadd
  | halfs
  | hsub
  | interleave
  | load
  | load_unchecked
  | max
  | merge_halves
  | merge_interleaved
  | merge_partitioned
  | min
  | ones
  | partition
  | partition_mask
  | popcnt128
  | popcnt256
  | popcnt512
  | product
  | recip
  | replace
  | replace_unchecked
  | round
  | rsqrt
  | saturating_add
  | saturating_downcast
  | saturating_hadd
  | saturating_hsub
  | saturating_sub
  | scalar_reduce
  | splat
  | sqrt
  | store
  | store_unchecked
  | sum
  | sum_upcast
  | swap_bytes
  | trunc
  | upcast
  | zeroes
  deriving DecidableEq, Repr

/-- The trait of a method. -/
def Meth.trait : Meth → VTrait
  | .abs => .abs
  | .be_f32s_unchecked => .transmute
  | .be_f64s_unchecked => .transmute
  | .be_i16s => .transmute
  | .be_i32s => .transmute
  | .be_i64s => .transmute
  | .be_i8s => .transmute
  | .be_u16s => .transmute
  | .be_u32s => .transmute
  | .be_u64s => .transmute
  | .be_u8s => .transmute
  | .ceil => .round
  | .coalesce => .packed
  | .count_ones => .popcnt
  | .default => .packed
  | .destride_four => .destride
  | .destride_two => .destride
  | .eq_mask => .eq
  | .extract => .packed
  | .extract_unchecked => .packed
  | .floor => .round
  | .hadd => .hAdd
  | .halfs => .pattern
  | .hsub => .hSub
  | .interleave => .pattern
  | .load => .packed
  | .load_unchecked => .packed
  | .max => .cmp
  | .merge_halves => .merge
  | .merge_interleaved => .merge
  | .merge_partitioned => .merge
  | .min => .cmp
  | .ones => .pattern
  | .partition => .pattern
  | .partition_mask => .pattern
  | .popcnt128 => .helper
  | .popcnt256 => .helper
  | .popcnt512 => .helper
  | .product => .packed
  | .recip => .recip
  | .replace => .packed
  | .replace_unchecked => .packed
  | .round => .round
  | .rsqrt => .rsqrt
  | .saturating_add => .saturatingAdd
  | .saturating_downcast => .downcast
  | .saturating_hadd => .saturatingHAdd
  | .saturating_hsub => .saturatingHSub
  | .saturating_sub => .saturatingSub
  | .scalar_reduce => .packed
  | .splat => .packed
  | .sqrt => .sqrt
  | .store => .packed
  | .store_unchecked => .packed
  | .sum => .sum
  | .sum_upcast => .upcastSum
  | .swap_bytes => .reendianize
  | .trunc => .round
  | .upcast => .upcast
  | .zeroes => .pattern

/-- The methods of a trait which have no default. -/
def VTrait.required : VTrait → List Meth
  | .abs => [.abs]
  | .cmp => [.max, .min]
  | .destride => [.destride_two, .destride_four]
  | .downcast => [.saturating_downcast]
  | .eq => [.eq_mask]
  | .hAdd => [.hadd]
  | .hSub => [.hsub]
  | .helper => []
  | .merge => [.merge_halves, .merge_interleaved, .merge_partitioned]
  | .packed => [.load, .load_unchecked, .store, .store_unchecked, .coalesce, .splat, .default, .extract, .extract_unchecked, .replace, .replace_unchecked, .product, .scalar_reduce]
  | .pattern => [.halfs, .interleave, .partition, .partition_mask, .ones, .zeroes]
  | .popcnt => [.count_ones]
  | .recip => [.recip]
  | .reendianize => [.swap_bytes]
  | .round => [.round, .ceil, .floor, .trunc]
  | .rsqrt => [.rsqrt]
  | .saturatingAdd => [.saturating_add]
  | .saturatingHAdd => [.saturating_hadd]
  | .saturatingHSub => [.saturating_hsub]
  | .saturatingSub => [.saturating_sub]
  | .sqrt => [.sqrt]
  | .sum => [.sum]
  | .transmute => [.be_i8s, .be_u8s, .be_i16s, .be_u16s, .be_i32s, .be_u32s, .be_f32s_unchecked, .be_i64s, .be_u64s, .be_f64s_unchecked]
  | .upcast => [.upcast]
  | .upcastSum => [.sum_upcast]

/-- The supertraits among these. -/
def VTrait.super : VTrait → List VTrait
  | .abs => []
  | .cmp => []
  | .destride => []
  | .downcast => []
  | .eq => [.packed]
  | .hAdd => []
  | .hSub => []
  | .helper => []
  | .merge => []
  | .packed => [.merge]
  | .pattern => [.packed]
  | .popcnt => [.packed]
  | .recip => []
  | .reendianize => []
  | .round => []
  | .rsqrt => []
  | .saturatingAdd => []
  | .saturatingHAdd => []
  | .saturatingHSub => []
  | .saturatingSub => []
  | .sqrt => []
  | .sum => [.packed]
  | .transmute => []
  | .upcast => []
  | .upcastSum => []

/-- A vector type: kind and bytes of a lane, number of lanes. -/
structure VType where
  kind : Kind
  size : Nat
  lanes : Nat
  deriving DecidableEq, Repr

/-- One version of a method: file below src/arch, line, and the target features which must be
(`true`) or must not be (`false`) enabled for it to be compiled, those of the `impl` included. -/
structure Version where
  file : String
  line : Nat
  cond : List (String × Bool)

/-- A method of a vector type, with all its versions; `arg` is the parameter of the trait. -/
structure ImplRow where
  meth : Meth
  vec : VType
  arg : Option VType
  versions : List Version

/-- Methods of vector types under src/arch/x86. -/
def implRows : List ImplRow := [
  ⟨.abs, ⟨.f, 4, 4⟩, none, [⟨"intrin/abs.rs", 21, [("sse", true)]⟩, ⟨"intrin/abs.rs", 28, [("sse", false)]⟩]⟩,
  ⟨.abs, ⟨.f, 8, 2⟩, none, [⟨"intrin/abs.rs", 42, [("sse2", true)]⟩, ⟨"intrin/abs.rs", 49, [("sse2", false)]⟩]⟩,
  ⟨.abs, ⟨.f, 4, 8⟩, none, [⟨"intrin/abs.rs", 61, [("avx", true)]⟩, ⟨"intrin/abs.rs", 68, [("avx", false)]⟩]⟩,
  ⟨.abs, ⟨.f, 8, 4⟩, none, [⟨"intrin/abs.rs", 86, [("avx", true)]⟩, ⟨"intrin/abs.rs", 93, [("avx", false)]⟩]⟩,
  ⟨.abs, ⟨.i, 1, 16⟩, none, [⟨"intrin/abs.rs", 107, [("ssse3", true)]⟩, ⟨"intrin/abs.rs", 114, [("ssse3", false)]⟩]⟩,
  ⟨.abs, ⟨.i, 2, 8⟩, none, [⟨"intrin/abs.rs", 140, [("ssse3", true)]⟩, ⟨"intrin/abs.rs", 147, [("ssse3", false)]⟩]⟩,
  ⟨.abs, ⟨.i, 4, 4⟩, none, [⟨"intrin/abs.rs", 165, [("ssse3", true)]⟩, ⟨"intrin/abs.rs", 172, [("ssse3", false)]⟩]⟩,
  ⟨.abs, ⟨.i, 1, 32⟩, none, [⟨"intrin/abs.rs", 186, [("avx2", true)]⟩, ⟨"intrin/abs.rs", 193, [("avx2", false)]⟩]⟩,
  ⟨.abs, ⟨.i, 2, 16⟩, none, [⟨"intrin/abs.rs", 234, [("avx2", true)]⟩, ⟨"intrin/abs.rs", 241, [("avx2", false)]⟩]⟩,
  ⟨.abs, ⟨.i, 4, 8⟩, none, [⟨"intrin/abs.rs", 266, [("avx2", true)]⟩, ⟨"intrin/abs.rs", 273, [("avx2", false)]⟩]⟩,
  ⟨.abs, ⟨.i, 8, 2⟩, none, [⟨"intrin/abs.rs", 290, []⟩]⟩,
  ⟨.abs, ⟨.i, 8, 4⟩, none, [⟨"intrin/abs.rs", 301, []⟩]⟩,
  ⟨.abs, ⟨.i, 8, 8⟩, none, [⟨"intrin/abs.rs", 314, []⟩]⟩,
  ⟨.min, ⟨.u, 1, 16⟩, none, [⟨"intrin/cmp.rs", 14, [("sse2", true)]⟩, ⟨"intrin/cmp.rs", 14, [("sse2", false)]⟩]⟩,
  ⟨.max, ⟨.u, 1, 16⟩, none, [⟨"intrin/cmp.rs", 14, [("sse2", true)]⟩, ⟨"intrin/cmp.rs", 14, [("sse2", false)]⟩]⟩,
  ⟨.min, ⟨.i, 1, 16⟩, none, [⟨"intrin/cmp.rs", 21, [("sse4.1", true)]⟩, ⟨"intrin/cmp.rs", 21, [("sse4.1", false)]⟩]⟩,
  ⟨.max, ⟨.i, 1, 16⟩, none, [⟨"intrin/cmp.rs", 21, [("sse4.1", true)]⟩, ⟨"intrin/cmp.rs", 21, [("sse4.1", false)]⟩]⟩,
  ⟨.min, ⟨.u, 2, 8⟩, none, [⟨"intrin/cmp.rs", 28, [("sse4.1", true)]⟩, ⟨"intrin/cmp.rs", 28, [("sse4.1", false)]⟩]⟩,
  ⟨.max, ⟨.u, 2, 8⟩, none, [⟨"intrin/cmp.rs", 28, [("sse4.1", true)]⟩, ⟨"intrin/cmp.rs", 28, [("sse4.1", false)]⟩]⟩,
  ⟨.min, ⟨.i, 2, 8⟩, none, [⟨"intrin/cmp.rs", 35, [("sse4.1", true)]⟩, ⟨"intrin/cmp.rs", 35, [("sse4.1", false)]⟩]⟩,
  ⟨.max, ⟨.i, 2, 8⟩, none, [⟨"intrin/cmp.rs", 35, [("sse4.1", true)]⟩, ⟨"intrin/cmp.rs", 35, [("sse4.1", false)]⟩]⟩,
  ⟨.min, ⟨.u, 4, 4⟩, none, [⟨"intrin/cmp.rs", 42, [("sse4.1", true)]⟩, ⟨"intrin/cmp.rs", 42, [("sse4.1", false)]⟩]⟩,
  ⟨.max, ⟨.u, 4, 4⟩, none, [⟨"intrin/cmp.rs", 42, [("sse4.1", true)]⟩, ⟨"intrin/cmp.rs", 42, [("sse4.1", false)]⟩]⟩,
  ⟨.min, ⟨.i, 4, 4⟩, none, [⟨"intrin/cmp.rs", 49, [("sse4.1", true)]⟩, ⟨"intrin/cmp.rs", 49, [("sse4.1", false)]⟩]⟩,
  ⟨.max, ⟨.i, 4, 4⟩, none, [⟨"intrin/cmp.rs", 49, [("sse4.1", true)]⟩, ⟨"intrin/cmp.rs", 49, [("sse4.1", false)]⟩]⟩,
  ⟨.min, ⟨.f, 4, 4⟩, none, [⟨"intrin/cmp.rs", 56, [("sse", true)]⟩, ⟨"intrin/cmp.rs", 56, [("sse", false)]⟩]⟩,
  ⟨.max, ⟨.f, 4, 4⟩, none, [⟨"intrin/cmp.rs", 56, [("sse", true)]⟩, ⟨"intrin/cmp.rs", 56, [("sse", false)]⟩]⟩,
  ⟨.min, ⟨.f, 8, 2⟩, none, [⟨"intrin/cmp.rs", 63, [("sse2", true)]⟩, ⟨"intrin/cmp.rs", 63, [("sse2", false)]⟩]⟩,
  ⟨.max, ⟨.f, 8, 2⟩, none, [⟨"intrin/cmp.rs", 63, [("sse2", true)]⟩, ⟨"intrin/cmp.rs", 63, [("sse2", false)]⟩]⟩,
  ⟨.min, ⟨.u, 1, 32⟩, none, [⟨"intrin/cmp.rs", 70, [("avx2", true)]⟩, ⟨"intrin/cmp.rs", 70, [("avx2", false)]⟩]⟩,
  ⟨.max, ⟨.u, 1, 32⟩, none, [⟨"intrin/cmp.rs", 70, [("avx2", true)]⟩, ⟨"intrin/cmp.rs", 70, [("avx2", false)]⟩]⟩,
  ⟨.min, ⟨.i, 1, 32⟩, none, [⟨"intrin/cmp.rs", 79, [("avx2", true)]⟩, ⟨"intrin/cmp.rs", 79, [("avx2", false)]⟩]⟩,
  ⟨.max, ⟨.i, 1, 32⟩, none, [⟨"intrin/cmp.rs", 79, [("avx2", true)]⟩, ⟨"intrin/cmp.rs", 79, [("avx2", false)]⟩]⟩,
  ⟨.min, ⟨.u, 2, 16⟩, none, [⟨"intrin/cmp.rs", 88, [("avx2", true)]⟩, ⟨"intrin/cmp.rs", 88, [("avx2", false)]⟩]⟩,
  ⟨.max, ⟨.u, 2, 16⟩, none, [⟨"intrin/cmp.rs", 88, [("avx2", true)]⟩, ⟨"intrin/cmp.rs", 88, [("avx2", false)]⟩]⟩,
  ⟨.min, ⟨.i, 2, 16⟩, none, [⟨"intrin/cmp.rs", 95, [("avx2", true)]⟩, ⟨"intrin/cmp.rs", 95, [("avx2", false)]⟩]⟩,
  ⟨.max, ⟨.i, 2, 16⟩, none, [⟨"intrin/cmp.rs", 95, [("avx2", true)]⟩, ⟨"intrin/cmp.rs", 95, [("avx2", false)]⟩]⟩,
  ⟨.min, ⟨.u, 4, 8⟩, none, [⟨"intrin/cmp.rs", 102, [("avx", true)]⟩, ⟨"intrin/cmp.rs", 102, [("avx", false)]⟩]⟩,
  ⟨.max, ⟨.u, 4, 8⟩, none, [⟨"intrin/cmp.rs", 102, [("avx", true)]⟩, ⟨"intrin/cmp.rs", 102, [("avx", false)]⟩]⟩,
  ⟨.min, ⟨.i, 4, 8⟩, none, [⟨"intrin/cmp.rs", 109, [("avx", true)]⟩, ⟨"intrin/cmp.rs", 109, [("avx", false)]⟩]⟩,
  ⟨.max, ⟨.i, 4, 8⟩, none, [⟨"intrin/cmp.rs", 109, [("avx", true)]⟩, ⟨"intrin/cmp.rs", 109, [("avx", false)]⟩]⟩,
  ⟨.min, ⟨.f, 4, 8⟩, none, [⟨"intrin/cmp.rs", 116, [("avx", true)]⟩, ⟨"intrin/cmp.rs", 116, [("avx", false)]⟩]⟩,
  ⟨.max, ⟨.f, 4, 8⟩, none, [⟨"intrin/cmp.rs", 116, [("avx", true)]⟩, ⟨"intrin/cmp.rs", 116, [("avx", false)]⟩]⟩,
  ⟨.min, ⟨.f, 8, 4⟩, none, [⟨"intrin/cmp.rs", 123, [("avx", true)]⟩, ⟨"intrin/cmp.rs", 123, [("avx", false)]⟩]⟩,
  ⟨.max, ⟨.f, 8, 4⟩, none, [⟨"intrin/cmp.rs", 123, [("avx", true)]⟩, ⟨"intrin/cmp.rs", 123, [("avx", false)]⟩]⟩,
  ⟨.destride_two, ⟨.u, 1, 16⟩, none, [⟨"intrin/destride.rs", 13, [("ssse3", true)]⟩, ⟨"intrin/destride.rs", 26, [("ssse3", false)]⟩]⟩,
  ⟨.destride_four, ⟨.u, 1, 16⟩, none, [⟨"intrin/destride.rs", 32, []⟩]⟩,
  ⟨.destride_two, ⟨.u, 1, 32⟩, none, [⟨"intrin/destride.rs", 41, [("avx2", true)]⟩, ⟨"intrin/destride.rs", 58, [("avx2", false)]⟩]⟩,
  ⟨.destride_four, ⟨.u, 1, 32⟩, none, [⟨"intrin/destride.rs", 64, []⟩]⟩,
  ⟨.destride_two, ⟨.i, 1, 16⟩, none, [⟨"intrin/destride.rs", 73, [("ssse3", true)]⟩, ⟨"intrin/destride.rs", 86, [("ssse3", false)]⟩]⟩,
  ⟨.destride_four, ⟨.i, 1, 16⟩, none, [⟨"intrin/destride.rs", 92, []⟩]⟩,
  ⟨.destride_two, ⟨.i, 1, 32⟩, none, [⟨"intrin/destride.rs", 101, [("avx2", true)]⟩, ⟨"intrin/destride.rs", 118, [("avx2", false)]⟩]⟩,
  ⟨.destride_four, ⟨.i, 1, 32⟩, none, [⟨"intrin/destride.rs", 124, []⟩]⟩,
  ⟨.destride_two, ⟨.u, 2, 16⟩, none, [⟨"intrin/destride.rs", 148, []⟩]⟩,
  ⟨.destride_four, ⟨.u, 2, 16⟩, none, [⟨"intrin/destride.rs", 148, []⟩]⟩,
  ⟨.destride_two, ⟨.u, 2, 8⟩, none, [⟨"intrin/destride.rs", 149, []⟩]⟩,
  ⟨.destride_four, ⟨.u, 2, 8⟩, none, [⟨"intrin/destride.rs", 149, []⟩]⟩,
  ⟨.destride_two, ⟨.i, 2, 16⟩, none, [⟨"intrin/destride.rs", 150, []⟩]⟩,
  ⟨.destride_four, ⟨.i, 2, 16⟩, none, [⟨"intrin/destride.rs", 150, []⟩]⟩,
  ⟨.destride_two, ⟨.i, 2, 8⟩, none, [⟨"intrin/destride.rs", 151, []⟩]⟩,
  ⟨.destride_four, ⟨.i, 2, 8⟩, none, [⟨"intrin/destride.rs", 151, []⟩]⟩,
  ⟨.destride_two, ⟨.u, 4, 8⟩, none, [⟨"intrin/destride.rs", 153, []⟩]⟩,
  ⟨.destride_four, ⟨.u, 4, 8⟩, none, [⟨"intrin/destride.rs", 153, []⟩]⟩,
  ⟨.destride_two, ⟨.u, 4, 4⟩, none, [⟨"intrin/destride.rs", 154, []⟩]⟩,
  ⟨.destride_four, ⟨.u, 4, 4⟩, none, [⟨"intrin/destride.rs", 154, []⟩]⟩,
  ⟨.destride_two, ⟨.i, 4, 8⟩, none, [⟨"intrin/destride.rs", 155, []⟩]⟩,
  ⟨.destride_four, ⟨.i, 4, 8⟩, none, [⟨"intrin/destride.rs", 155, []⟩]⟩,
  ⟨.destride_two, ⟨.i, 4, 4⟩, none, [⟨"intrin/destride.rs", 156, []⟩]⟩,
  ⟨.destride_four, ⟨.i, 4, 4⟩, none, [⟨"intrin/destride.rs", 156, []⟩]⟩,
  ⟨.saturating_downcast, ⟨.i, 4, 4⟩, some ⟨.i, 2, 8⟩, [⟨"intrin/downcast.rs", 19, [("sse2", true)]⟩, ⟨"intrin/downcast.rs", 26, [("sse2", false)]⟩]⟩,
  ⟨.saturating_downcast, ⟨.i, 8, 2⟩, some ⟨.i, 4, 4⟩, [⟨"intrin/downcast.rs", 41, []⟩]⟩,
  ⟨.saturating_downcast, ⟨.u, 8, 2⟩, some ⟨.u, 4, 4⟩, [⟨"intrin/downcast.rs", 52, []⟩]⟩,
  ⟨.saturating_downcast, ⟨.f, 8, 2⟩, some ⟨.f, 4, 4⟩, [⟨"intrin/downcast.rs", 63, []⟩]⟩,
  ⟨.saturating_downcast, ⟨.i, 2, 8⟩, some ⟨.i, 1, 16⟩, [⟨"intrin/downcast.rs", 75, [("sse2", true)]⟩, ⟨"intrin/downcast.rs", 82, [("sse2", false)]⟩]⟩,
  ⟨.saturating_downcast, ⟨.u, 4, 4⟩, some ⟨.u, 2, 8⟩, [⟨"intrin/downcast.rs", 106, [("sse4.1", true)]⟩, ⟨"intrin/downcast.rs", 113, [("sse4.1", false)]⟩]⟩,
  ⟨.saturating_downcast, ⟨.u, 2, 8⟩, some ⟨.u, 1, 16⟩, [⟨"intrin/downcast.rs", 129, [("sse2", true)]⟩, ⟨"intrin/downcast.rs", 136, [("sse2", false)]⟩]⟩,
  ⟨.saturating_downcast, ⟨.i, 4, 8⟩, some ⟨.i, 2, 16⟩, [⟨"intrin/downcast.rs", 160, [("avx2", true)]⟩, ⟨"intrin/downcast.rs", 167, [("avx2", false)]⟩]⟩,
  ⟨.saturating_downcast, ⟨.i, 2, 16⟩, some ⟨.i, 1, 32⟩, [⟨"intrin/downcast.rs", 191, [("avx2", true)]⟩, ⟨"intrin/downcast.rs", 198, [("avx2", false)]⟩]⟩,
  ⟨.saturating_downcast, ⟨.u, 4, 8⟩, some ⟨.u, 2, 16⟩, [⟨"intrin/downcast.rs", 238, [("avx2", true)]⟩, ⟨"intrin/downcast.rs", 245, [("avx2", false)]⟩]⟩,
  ⟨.saturating_downcast, ⟨.u, 2, 16⟩, some ⟨.u, 1, 32⟩, [⟨"intrin/downcast.rs", 269, [("avx2", true)]⟩, ⟨"intrin/downcast.rs", 276, [("avx2", false)]⟩]⟩,
  ⟨.saturating_downcast, ⟨.i, 8, 4⟩, some ⟨.i, 4, 8⟩, [⟨"intrin/downcast.rs", 315, []⟩]⟩,
  ⟨.saturating_downcast, ⟨.u, 8, 4⟩, some ⟨.u, 4, 8⟩, [⟨"intrin/downcast.rs", 330, []⟩]⟩,
  ⟨.saturating_downcast, ⟨.f, 8, 4⟩, some ⟨.f, 4, 8⟩, [⟨"intrin/downcast.rs", 345, []⟩]⟩,
  ⟨.swap_bytes, ⟨.u, 1, 64⟩, none, [⟨"intrin/endian.rs", 9, [("avx512-butnotyet", true)]⟩, ⟨"intrin/endian.rs", 9, [("avx512-butnotyet", false)]⟩]⟩,
  ⟨.swap_bytes, ⟨.u, 1, 32⟩, none, [⟨"intrin/endian.rs", 12, [("avx2", true)]⟩, ⟨"intrin/endian.rs", 12, [("avx2", false)]⟩]⟩,
  ⟨.swap_bytes, ⟨.u, 1, 16⟩, none, [⟨"intrin/endian.rs", 15, [("ssse3", true)]⟩, ⟨"intrin/endian.rs", 15, [("ssse3", false)]⟩]⟩,
  ⟨.swap_bytes, ⟨.i, 1, 64⟩, none, [⟨"intrin/endian.rs", 18, [("avx512-butnotyet", true)]⟩, ⟨"intrin/endian.rs", 18, [("avx512-butnotyet", false)]⟩]⟩,
  ⟨.swap_bytes, ⟨.i, 1, 32⟩, none, [⟨"intrin/endian.rs", 21, [("avx2", true)]⟩, ⟨"intrin/endian.rs", 21, [("avx2", false)]⟩]⟩,
  ⟨.swap_bytes, ⟨.i, 1, 16⟩, none, [⟨"intrin/endian.rs", 24, [("ssse3", true)]⟩, ⟨"intrin/endian.rs", 24, [("ssse3", false)]⟩]⟩,
  ⟨.swap_bytes, ⟨.u, 2, 32⟩, none, [⟨"intrin/endian.rs", 27, [("avx512-butnotyet", true)]⟩, ⟨"intrin/endian.rs", 27, [("avx512-butnotyet", false)]⟩]⟩,
  ⟨.swap_bytes, ⟨.u, 2, 16⟩, none, [⟨"intrin/endian.rs", 30, [("avx2", true)]⟩, ⟨"intrin/endian.rs", 30, [("avx2", false)]⟩]⟩,
  ⟨.swap_bytes, ⟨.u, 2, 8⟩, none, [⟨"intrin/endian.rs", 33, [("ssse3", true)]⟩, ⟨"intrin/endian.rs", 33, [("ssse3", false)]⟩]⟩,
  ⟨.swap_bytes, ⟨.i, 2, 32⟩, none, [⟨"intrin/endian.rs", 36, [("avx512-butnotyet", true)]⟩, ⟨"intrin/endian.rs", 36, [("avx512-butnotyet", false)]⟩]⟩,
  ⟨.swap_bytes, ⟨.i, 2, 16⟩, none, [⟨"intrin/endian.rs", 39, [("avx2", true)]⟩, ⟨"intrin/endian.rs", 39, [("avx2", false)]⟩]⟩,
  ⟨.swap_bytes, ⟨.i, 2, 8⟩, none, [⟨"intrin/endian.rs", 42, [("ssse3", true)]⟩, ⟨"intrin/endian.rs", 42, [("ssse3", false)]⟩]⟩,
  ⟨.swap_bytes, ⟨.u, 4, 16⟩, none, [⟨"intrin/endian.rs", 45, [("avx512-butnotyet", true)]⟩, ⟨"intrin/endian.rs", 45, [("avx512-butnotyet", false)]⟩]⟩,
  ⟨.swap_bytes, ⟨.u, 4, 8⟩, none, [⟨"intrin/endian.rs", 48, [("avx2", true)]⟩, ⟨"intrin/endian.rs", 48, [("avx2", false)]⟩]⟩,
  ⟨.swap_bytes, ⟨.u, 4, 4⟩, none, [⟨"intrin/endian.rs", 51, [("ssse3", true)]⟩, ⟨"intrin/endian.rs", 51, [("ssse3", false)]⟩]⟩,
  ⟨.swap_bytes, ⟨.i, 4, 16⟩, none, [⟨"intrin/endian.rs", 54, [("avx512-butnotyet", true)]⟩, ⟨"intrin/endian.rs", 54, [("avx512-butnotyet", false)]⟩]⟩,
  ⟨.swap_bytes, ⟨.i, 4, 8⟩, none, [⟨"intrin/endian.rs", 57, [("avx2", true)]⟩, ⟨"intrin/endian.rs", 57, [("avx2", false)]⟩]⟩,
  ⟨.swap_bytes, ⟨.i, 4, 4⟩, none, [⟨"intrin/endian.rs", 60, [("ssse3", true)]⟩, ⟨"intrin/endian.rs", 60, [("ssse3", false)]⟩]⟩,
  ⟨.swap_bytes, ⟨.u, 8, 8⟩, none, [⟨"intrin/endian.rs", 63, [("avx512-butnotyet", true)]⟩, ⟨"intrin/endian.rs", 63, [("avx512-butnotyet", false)]⟩]⟩,
  ⟨.swap_bytes, ⟨.u, 8, 4⟩, none, [⟨"intrin/endian.rs", 66, [("avx2", true)]⟩, ⟨"intrin/endian.rs", 66, [("avx2", false)]⟩]⟩,
  ⟨.swap_bytes, ⟨.u, 8, 2⟩, none, [⟨"intrin/endian.rs", 69, [("ssse3", true)]⟩, ⟨"intrin/endian.rs", 69, [("ssse3", false)]⟩]⟩,
  ⟨.swap_bytes, ⟨.i, 8, 8⟩, none, [⟨"intrin/endian.rs", 72, [("avx512-butnotyet", true)]⟩, ⟨"intrin/endian.rs", 72, [("avx512-butnotyet", false)]⟩]⟩,
  ⟨.swap_bytes, ⟨.i, 8, 4⟩, none, [⟨"intrin/endian.rs", 75, [("avx2", true)]⟩, ⟨"intrin/endian.rs", 75, [("avx2", false)]⟩]⟩,
  ⟨.swap_bytes, ⟨.i, 8, 2⟩, none, [⟨"intrin/endian.rs", 78, [("ssse3", true)]⟩, ⟨"intrin/endian.rs", 78, [("ssse3", false)]⟩]⟩,
  ⟨.eq_mask, ⟨.u, 1, 16⟩, none, [⟨"intrin/eq.rs", 15, [("sse2", true)]⟩, ⟨"intrin/eq.rs", 15, [("sse2", false)]⟩]⟩,
  ⟨.eq_mask, ⟨.i, 1, 16⟩, none, [⟨"intrin/eq.rs", 21, [("sse4.1", true)]⟩, ⟨"intrin/eq.rs", 21, [("sse4.1", false)]⟩]⟩,
  ⟨.eq_mask, ⟨.u, 2, 8⟩, none, [⟨"intrin/eq.rs", 27, [("sse4.1", true)]⟩, ⟨"intrin/eq.rs", 27, [("sse4.1", false)]⟩]⟩,
  ⟨.eq_mask, ⟨.i, 2, 8⟩, none, [⟨"intrin/eq.rs", 33, [("sse4.1", true)]⟩, ⟨"intrin/eq.rs", 33, [("sse4.1", false)]⟩]⟩,
  ⟨.eq_mask, ⟨.u, 4, 4⟩, none, [⟨"intrin/eq.rs", 39, [("sse4.1", true)]⟩, ⟨"intrin/eq.rs", 39, [("sse4.1", false)]⟩]⟩,
  ⟨.eq_mask, ⟨.i, 4, 4⟩, none, [⟨"intrin/eq.rs", 45, [("sse4.1", true)]⟩, ⟨"intrin/eq.rs", 45, [("sse4.1", false)]⟩]⟩,
  ⟨.eq_mask, ⟨.f, 4, 4⟩, none, [⟨"intrin/eq.rs", 51, [("sse", true)]⟩, ⟨"intrin/eq.rs", 51, [("sse", false)]⟩]⟩,
  ⟨.eq_mask, ⟨.f, 8, 2⟩, none, [⟨"intrin/eq.rs", 57, [("sse2", true)]⟩, ⟨"intrin/eq.rs", 57, [("sse2", false)]⟩]⟩,
  ⟨.eq_mask, ⟨.u, 8, 2⟩, none, [⟨"intrin/eq.rs", 63, [("sse4.1", true)]⟩, ⟨"intrin/eq.rs", 63, [("sse4.1", false)]⟩]⟩,
  ⟨.eq_mask, ⟨.i, 8, 2⟩, none, [⟨"intrin/eq.rs", 69, [("sse4.1", true)]⟩, ⟨"intrin/eq.rs", 69, [("sse4.1", false)]⟩]⟩,
  ⟨.eq_mask, ⟨.u, 1, 32⟩, none, [⟨"intrin/eq.rs", 75, [("avx2", true)]⟩, ⟨"intrin/eq.rs", 75, [("avx2", false)]⟩]⟩,
  ⟨.eq_mask, ⟨.i, 1, 32⟩, none, [⟨"intrin/eq.rs", 82, [("avx2", true)]⟩, ⟨"intrin/eq.rs", 82, [("avx2", false)]⟩]⟩,
  ⟨.eq_mask, ⟨.u, 2, 16⟩, none, [⟨"intrin/eq.rs", 89, [("avx2", true)]⟩, ⟨"intrin/eq.rs", 89, [("avx2", false)]⟩]⟩,
  ⟨.eq_mask, ⟨.i, 2, 16⟩, none, [⟨"intrin/eq.rs", 95, [("avx2", true)]⟩, ⟨"intrin/eq.rs", 95, [("avx2", false)]⟩]⟩,
  ⟨.eq_mask, ⟨.u, 4, 8⟩, none, [⟨"intrin/eq.rs", 101, [("avx2", true)]⟩, ⟨"intrin/eq.rs", 101, [("avx2", false)]⟩]⟩,
  ⟨.eq_mask, ⟨.i, 4, 8⟩, none, [⟨"intrin/eq.rs", 107, [("avx2", true)]⟩, ⟨"intrin/eq.rs", 107, [("avx2", false)]⟩]⟩,
  ⟨.eq_mask, ⟨.f, 4, 8⟩, none, [⟨"intrin/eq.rs", 113, [("avx", true)]⟩, ⟨"intrin/eq.rs", 113, [("avx", false)]⟩]⟩,
  ⟨.eq_mask, ⟨.f, 8, 4⟩, none, [⟨"intrin/eq.rs", 119, [("avx", true)]⟩, ⟨"intrin/eq.rs", 119, [("avx", false)]⟩]⟩,
  ⟨.eq_mask, ⟨.u, 8, 4⟩, none, [⟨"intrin/eq.rs", 125, [("avx2", true)]⟩, ⟨"intrin/eq.rs", 125, [("avx2", false)]⟩]⟩,
  ⟨.eq_mask, ⟨.i, 8, 4⟩, none, [⟨"intrin/eq.rs", 131, [("avx2", true)]⟩, ⟨"intrin/eq.rs", 131, [("avx2", false)]⟩]⟩,
  ⟨.hadd, ⟨.f, 4, 4⟩, none, [⟨"intrin/hadd.rs", 19, [("sse3", true)]⟩, ⟨"intrin/hadd.rs", 129, [("sse3", false)]⟩]⟩,
  ⟨.hadd, ⟨.f, 8, 2⟩, none, [⟨"intrin/hadd.rs", 30, [("sse3", true)]⟩, ⟨"intrin/hadd.rs", 124, [("sse3", false)]⟩]⟩,
  ⟨.hadd, ⟨.f, 4, 8⟩, none, [⟨"intrin/hadd.rs", 39, [("avx2", true)]⟩, ⟨"intrin/hadd.rs", 131, [("avx2", false)]⟩]⟩,
  ⟨.hadd, ⟨.f, 8, 4⟩, none, [⟨"intrin/hadd.rs", 49, [("avx", true)]⟩, ⟨"intrin/hadd.rs", 126, [("avx", false)]⟩]⟩,
  ⟨.hadd, ⟨.i, 2, 8⟩, none, [⟨"intrin/hadd.rs", 58, [("ssse3", true)]⟩, ⟨"intrin/hadd.rs", 116, [("ssse3", false)]⟩]⟩,
  ⟨.hadd, ⟨.i, 4, 4⟩, none, [⟨"intrin/hadd.rs", 68, [("ssse3", true)]⟩, ⟨"intrin/hadd.rs", 111, [("ssse3", false)]⟩]⟩,
  ⟨.hadd, ⟨.i, 2, 16⟩, none, [⟨"intrin/hadd.rs", 78, [("avx2", true)]⟩, ⟨"intrin/hadd.rs", 118, [("avx2", false)]⟩]⟩,
  ⟨.hadd, ⟨.i, 4, 8⟩, none, [⟨"intrin/hadd.rs", 88, [("avx2", true)]⟩, ⟨"intrin/hadd.rs", 113, [("avx2", false)]⟩]⟩,
  ⟨.hadd, ⟨.u, 8, 2⟩, none, [⟨"intrin/hadd.rs", 95, []⟩]⟩,
  ⟨.hadd, ⟨.u, 8, 4⟩, none, [⟨"intrin/hadd.rs", 96, []⟩]⟩,
  ⟨.hadd, ⟨.u, 8, 8⟩, none, [⟨"intrin/hadd.rs", 97, []⟩]⟩,
  ⟨.hadd, ⟨.u, 4, 4⟩, none, [⟨"intrin/hadd.rs", 98, []⟩]⟩,
  ⟨.hadd, ⟨.u, 4, 8⟩, none, [⟨"intrin/hadd.rs", 99, []⟩]⟩,
  ⟨.hadd, ⟨.u, 4, 16⟩, none, [⟨"intrin/hadd.rs", 100, []⟩]⟩,
  ⟨.hadd, ⟨.u, 2, 8⟩, none, [⟨"intrin/hadd.rs", 101, []⟩]⟩,
  ⟨.hadd, ⟨.u, 2, 16⟩, none, [⟨"intrin/hadd.rs", 102, []⟩]⟩,
  ⟨.hadd, ⟨.u, 2, 32⟩, none, [⟨"intrin/hadd.rs", 103, []⟩]⟩,
  ⟨.hadd, ⟨.u, 1, 16⟩, none, [⟨"intrin/hadd.rs", 104, []⟩]⟩,
  ⟨.hadd, ⟨.u, 1, 32⟩, none, [⟨"intrin/hadd.rs", 105, []⟩]⟩,
  ⟨.hadd, ⟨.u, 1, 64⟩, none, [⟨"intrin/hadd.rs", 106, []⟩]⟩,
  ⟨.hadd, ⟨.i, 8, 2⟩, none, [⟨"intrin/hadd.rs", 107, []⟩]⟩,
  ⟨.hadd, ⟨.i, 8, 4⟩, none, [⟨"intrin/hadd.rs", 108, []⟩]⟩,
  ⟨.hadd, ⟨.i, 8, 8⟩, none, [⟨"intrin/hadd.rs", 109, []⟩]⟩,
  ⟨.hadd, ⟨.i, 4, 16⟩, none, [⟨"intrin/hadd.rs", 114, []⟩]⟩,
  ⟨.hadd, ⟨.i, 2, 32⟩, none, [⟨"intrin/hadd.rs", 119, []⟩]⟩,
  ⟨.hadd, ⟨.i, 1, 16⟩, none, [⟨"intrin/hadd.rs", 120, []⟩]⟩,
  ⟨.hadd, ⟨.i, 1, 32⟩, none, [⟨"intrin/hadd.rs", 121, []⟩]⟩,
  ⟨.hadd, ⟨.i, 1, 64⟩, none, [⟨"intrin/hadd.rs", 122, []⟩]⟩,
  ⟨.hadd, ⟨.f, 8, 8⟩, none, [⟨"intrin/hadd.rs", 127, []⟩]⟩,
  ⟨.hadd, ⟨.f, 4, 16⟩, none, [⟨"intrin/hadd.rs", 132, []⟩]⟩,
  ⟨.hsub, ⟨.f, 4, 4⟩, none, [⟨"intrin/hsub.rs", 19, [("sse3", true)]⟩, ⟨"intrin/hsub.rs", 128, [("sse3", false)]⟩]⟩,
  ⟨.hsub, ⟨.f, 8, 2⟩, none, [⟨"intrin/hsub.rs", 29, [("sse3", true)]⟩, ⟨"intrin/hsub.rs", 123, [("sse3", false)]⟩]⟩,
  ⟨.hsub, ⟨.f, 4, 8⟩, none, [⟨"intrin/hsub.rs", 38, [("avx2", true)]⟩, ⟨"intrin/hsub.rs", 130, [("avx2", false)]⟩]⟩,
  ⟨.hsub, ⟨.f, 8, 4⟩, none, [⟨"intrin/hsub.rs", 48, [("avx", true)]⟩, ⟨"intrin/hsub.rs", 125, [("avx", false)]⟩]⟩,
  ⟨.hsub, ⟨.i, 2, 8⟩, none, [⟨"intrin/hsub.rs", 57, [("ssse3", true)]⟩, ⟨"intrin/hsub.rs", 115, [("ssse3", false)]⟩]⟩,
  ⟨.hsub, ⟨.i, 4, 4⟩, none, [⟨"intrin/hsub.rs", 67, [("ssse3", true)]⟩, ⟨"intrin/hsub.rs", 110, [("ssse3", false)]⟩]⟩,
  ⟨.hsub, ⟨.i, 2, 16⟩, none, [⟨"intrin/hsub.rs", 77, [("avx2", true)]⟩, ⟨"intrin/hsub.rs", 117, [("avx2", false)]⟩]⟩,
  ⟨.hsub, ⟨.i, 4, 8⟩, none, [⟨"intrin/hsub.rs", 87, [("avx2", true)]⟩, ⟨"intrin/hsub.rs", 112, [("avx2", false)]⟩]⟩,
  ⟨.hsub, ⟨.u, 8, 2⟩, none, [⟨"intrin/hsub.rs", 94, []⟩]⟩,
  ⟨.hsub, ⟨.u, 8, 4⟩, none, [⟨"intrin/hsub.rs", 95, []⟩]⟩,
  ⟨.hsub, ⟨.u, 8, 8⟩, none, [⟨"intrin/hsub.rs", 96, []⟩]⟩,
  ⟨.hsub, ⟨.u, 4, 4⟩, none, [⟨"intrin/hsub.rs", 97, []⟩]⟩,
  ⟨.hsub, ⟨.u, 4, 8⟩, none, [⟨"intrin/hsub.rs", 98, []⟩]⟩,
  ⟨.hsub, ⟨.u, 4, 16⟩, none, [⟨"intrin/hsub.rs", 99, []⟩]⟩,
  ⟨.hsub, ⟨.u, 2, 8⟩, none, [⟨"intrin/hsub.rs", 100, []⟩]⟩,
  ⟨.hsub, ⟨.u, 2, 16⟩, none, [⟨"intrin/hsub.rs", 101, []⟩]⟩,
  ⟨.hsub, ⟨.u, 2, 32⟩, none, [⟨"intrin/hsub.rs", 102, []⟩]⟩,
  ⟨.hsub, ⟨.u, 1, 16⟩, none, [⟨"intrin/hsub.rs", 103, []⟩]⟩,
  ⟨.hsub, ⟨.u, 1, 32⟩, none, [⟨"intrin/hsub.rs", 104, []⟩]⟩,
  ⟨.hsub, ⟨.u, 1, 64⟩, none, [⟨"intrin/hsub.rs", 105, []⟩]⟩,
  ⟨.hsub, ⟨.i, 8, 2⟩, none, [⟨"intrin/hsub.rs", 106, []⟩]⟩,
  ⟨.hsub, ⟨.i, 8, 4⟩, none, [⟨"intrin/hsub.rs", 107, []⟩]⟩,
  ⟨.hsub, ⟨.i, 8, 8⟩, none, [⟨"intrin/hsub.rs", 108, []⟩]⟩,
  ⟨.hsub, ⟨.i, 4, 16⟩, none, [⟨"intrin/hsub.rs", 113, []⟩]⟩,
  ⟨.hsub, ⟨.i, 2, 32⟩, none, [⟨"intrin/hsub.rs", 118, []⟩]⟩,
  ⟨.hsub, ⟨.i, 1, 16⟩, none, [⟨"intrin/hsub.rs", 119, []⟩]⟩,
  ⟨.hsub, ⟨.i, 1, 32⟩, none, [⟨"intrin/hsub.rs", 120, []⟩]⟩,
  ⟨.hsub, ⟨.i, 1, 64⟩, none, [⟨"intrin/hsub.rs", 121, []⟩]⟩,
  ⟨.hsub, ⟨.f, 8, 8⟩, none, [⟨"intrin/hsub.rs", 126, []⟩]⟩,
  ⟨.hsub, ⟨.f, 4, 16⟩, none, [⟨"intrin/hsub.rs", 131, []⟩]⟩,
  ⟨.merge_halves, ⟨.u, 1, 16⟩, none, [⟨"intrin/merge.rs", 12, [("sse4.1", true)]⟩, ⟨"intrin/merge.rs", 12, [("sse4.1", false)]⟩]⟩,
  ⟨.merge_interleaved, ⟨.u, 1, 16⟩, none, [⟨"intrin/merge.rs", 12, [("sse4.1", true)]⟩, ⟨"intrin/merge.rs", 12, [("sse4.1", false)]⟩]⟩,
  ⟨.merge_partitioned, ⟨.u, 1, 16⟩, none, [⟨"intrin/merge.rs", 12, [("sse4.1", true)]⟩, ⟨"intrin/merge.rs", 12, [("sse4.1", false)]⟩]⟩,
  ⟨.merge_halves, ⟨.u, 1, 32⟩, none, [⟨"intrin/merge.rs", 13, [("avx2", true)]⟩, ⟨"intrin/merge.rs", 13, [("avx2", false)]⟩]⟩,
  ⟨.merge_interleaved, ⟨.u, 1, 32⟩, none, [⟨"intrin/merge.rs", 13, [("avx2", true)]⟩, ⟨"intrin/merge.rs", 13, [("avx2", false)]⟩]⟩,
  ⟨.merge_partitioned, ⟨.u, 1, 32⟩, none, [⟨"intrin/merge.rs", 13, [("avx2", true)]⟩, ⟨"intrin/merge.rs", 13, [("avx2", false)]⟩]⟩,
  ⟨.merge_halves, ⟨.u, 1, 64⟩, none, [⟨"intrin/merge.rs", 14, [("avx512-butnotyet", true)]⟩, ⟨"intrin/merge.rs", 14, [("avx512-butnotyet", false)]⟩]⟩,
  ⟨.merge_interleaved, ⟨.u, 1, 64⟩, none, [⟨"intrin/merge.rs", 14, [("avx512-butnotyet", true)]⟩, ⟨"intrin/merge.rs", 14, [("avx512-butnotyet", false)]⟩]⟩,
  ⟨.merge_partitioned, ⟨.u, 1, 64⟩, none, [⟨"intrin/merge.rs", 14, [("avx512-butnotyet", true)]⟩, ⟨"intrin/merge.rs", 14, [("avx512-butnotyet", false)]⟩]⟩,
  ⟨.merge_halves, ⟨.u, 2, 8⟩, none, [⟨"intrin/merge.rs", 16, [("sse4.1", true)]⟩, ⟨"intrin/merge.rs", 16, [("sse4.1", false)]⟩]⟩,
  ⟨.merge_interleaved, ⟨.u, 2, 8⟩, none, [⟨"intrin/merge.rs", 16, [("sse4.1", true)]⟩, ⟨"intrin/merge.rs", 16, [("sse4.1", false)]⟩]⟩,
  ⟨.merge_partitioned, ⟨.u, 2, 8⟩, none, [⟨"intrin/merge.rs", 16, [("sse4.1", true)]⟩, ⟨"intrin/merge.rs", 16, [("sse4.1", false)]⟩]⟩,
  ⟨.merge_halves, ⟨.u, 2, 16⟩, none, [⟨"intrin/merge.rs", 17, [("avx2", true)]⟩, ⟨"intrin/merge.rs", 17, [("avx2", false)]⟩]⟩,
  ⟨.merge_interleaved, ⟨.u, 2, 16⟩, none, [⟨"intrin/merge.rs", 17, [("avx2", true)]⟩, ⟨"intrin/merge.rs", 17, [("avx2", false)]⟩]⟩,
  ⟨.merge_partitioned, ⟨.u, 2, 16⟩, none, [⟨"intrin/merge.rs", 17, [("avx2", true)]⟩, ⟨"intrin/merge.rs", 17, [("avx2", false)]⟩]⟩,
  ⟨.merge_halves, ⟨.u, 2, 32⟩, none, [⟨"intrin/merge.rs", 18, [("avx512-butnotyet", true)]⟩, ⟨"intrin/merge.rs", 18, [("avx512-butnotyet", false)]⟩]⟩,
  ⟨.merge_interleaved, ⟨.u, 2, 32⟩, none, [⟨"intrin/merge.rs", 18, [("avx512-butnotyet", true)]⟩, ⟨"intrin/merge.rs", 18, [("avx512-butnotyet", false)]⟩]⟩,
  ⟨.merge_partitioned, ⟨.u, 2, 32⟩, none, [⟨"intrin/merge.rs", 18, [("avx512-butnotyet", true)]⟩, ⟨"intrin/merge.rs", 18, [("avx512-butnotyet", false)]⟩]⟩,
  ⟨.merge_halves, ⟨.u, 4, 4⟩, none, [⟨"intrin/merge.rs", 20, [("sse4.1", true)]⟩, ⟨"intrin/merge.rs", 20, [("sse4.1", false)]⟩]⟩,
  ⟨.merge_interleaved, ⟨.u, 4, 4⟩, none, [⟨"intrin/merge.rs", 20, [("sse4.1", true)]⟩, ⟨"intrin/merge.rs", 20, [("sse4.1", false)]⟩]⟩,
  ⟨.merge_partitioned, ⟨.u, 4, 4⟩, none, [⟨"intrin/merge.rs", 20, [("sse4.1", true)]⟩, ⟨"intrin/merge.rs", 20, [("sse4.1", false)]⟩]⟩,
  ⟨.merge_halves, ⟨.u, 4, 8⟩, none, [⟨"intrin/merge.rs", 21, [("avx2", true)]⟩, ⟨"intrin/merge.rs", 21, [("avx2", false)]⟩]⟩,
  ⟨.merge_interleaved, ⟨.u, 4, 8⟩, none, [⟨"intrin/merge.rs", 21, [("avx2", true)]⟩, ⟨"intrin/merge.rs", 21, [("avx2", false)]⟩]⟩,
  ⟨.merge_partitioned, ⟨.u, 4, 8⟩, none, [⟨"intrin/merge.rs", 21, [("avx2", true)]⟩, ⟨"intrin/merge.rs", 21, [("avx2", false)]⟩]⟩,
  ⟨.merge_halves, ⟨.u, 4, 16⟩, none, [⟨"intrin/merge.rs", 22, [("avx512-butnotyet", true)]⟩, ⟨"intrin/merge.rs", 22, [("avx512-butnotyet", false)]⟩]⟩,
  ⟨.merge_interleaved, ⟨.u, 4, 16⟩, none, [⟨"intrin/merge.rs", 22, [("avx512-butnotyet", true)]⟩, ⟨"intrin/merge.rs", 22, [("avx512-butnotyet", false)]⟩]⟩,
  ⟨.merge_partitioned, ⟨.u, 4, 16⟩, none, [⟨"intrin/merge.rs", 22, [("avx512-butnotyet", true)]⟩, ⟨"intrin/merge.rs", 22, [("avx512-butnotyet", false)]⟩]⟩,
  ⟨.merge_halves, ⟨.u, 8, 2⟩, none, [⟨"intrin/merge.rs", 24, [("sse4.1", true)]⟩, ⟨"intrin/merge.rs", 24, [("sse4.1", false)]⟩]⟩,
  ⟨.merge_interleaved, ⟨.u, 8, 2⟩, none, [⟨"intrin/merge.rs", 24, [("sse4.1", true)]⟩, ⟨"intrin/merge.rs", 24, [("sse4.1", false)]⟩]⟩,
  ⟨.merge_partitioned, ⟨.u, 8, 2⟩, none, [⟨"intrin/merge.rs", 24, [("sse4.1", true)]⟩, ⟨"intrin/merge.rs", 24, [("sse4.1", false)]⟩]⟩,
  ⟨.merge_halves, ⟨.u, 8, 4⟩, none, [⟨"intrin/merge.rs", 25, [("avx2", true)]⟩, ⟨"intrin/merge.rs", 25, [("avx2", false)]⟩]⟩,
  ⟨.merge_interleaved, ⟨.u, 8, 4⟩, none, [⟨"intrin/merge.rs", 25, [("avx2", true)]⟩, ⟨"intrin/merge.rs", 25, [("avx2", false)]⟩]⟩,
  ⟨.merge_partitioned, ⟨.u, 8, 4⟩, none, [⟨"intrin/merge.rs", 25, [("avx2", true)]⟩, ⟨"intrin/merge.rs", 25, [("avx2", false)]⟩]⟩,
  ⟨.merge_halves, ⟨.u, 8, 8⟩, none, [⟨"intrin/merge.rs", 26, [("avx512-butnotyet", true)]⟩, ⟨"intrin/merge.rs", 26, [("avx512-butnotyet", false)]⟩]⟩,
  ⟨.merge_interleaved, ⟨.u, 8, 8⟩, none, [⟨"intrin/merge.rs", 26, [("avx512-butnotyet", true)]⟩, ⟨"intrin/merge.rs", 26, [("avx512-butnotyet", false)]⟩]⟩,
  ⟨.merge_partitioned, ⟨.u, 8, 8⟩, none, [⟨"intrin/merge.rs", 26, [("avx512-butnotyet", true)]⟩, ⟨"intrin/merge.rs", 26, [("avx512-butnotyet", false)]⟩]⟩,
  ⟨.merge_halves, ⟨.i, 1, 16⟩, none, [⟨"intrin/merge.rs", 28, [("sse4.1", true)]⟩, ⟨"intrin/merge.rs", 28, [("sse4.1", false)]⟩]⟩,
  ⟨.merge_interleaved, ⟨.i, 1, 16⟩, none, [⟨"intrin/merge.rs", 28, [("sse4.1", true)]⟩, ⟨"intrin/merge.rs", 28, [("sse4.1", false)]⟩]⟩,
  ⟨.merge_partitioned, ⟨.i, 1, 16⟩, none, [⟨"intrin/merge.rs", 28, [("sse4.1", true)]⟩, ⟨"intrin/merge.rs", 28, [("sse4.1", false)]⟩]⟩,
  ⟨.merge_halves, ⟨.i, 1, 32⟩, none, [⟨"intrin/merge.rs", 29, [("avx2", true)]⟩, ⟨"intrin/merge.rs", 29, [("avx2", false)]⟩]⟩,
  ⟨.merge_interleaved, ⟨.i, 1, 32⟩, none, [⟨"intrin/merge.rs", 29, [("avx2", true)]⟩, ⟨"intrin/merge.rs", 29, [("avx2", false)]⟩]⟩,
  ⟨.merge_partitioned, ⟨.i, 1, 32⟩, none, [⟨"intrin/merge.rs", 29, [("avx2", true)]⟩, ⟨"intrin/merge.rs", 29, [("avx2", false)]⟩]⟩,
  ⟨.merge_halves, ⟨.i, 1, 64⟩, none, [⟨"intrin/merge.rs", 30, [("avx512-butnotyet", true)]⟩, ⟨"intrin/merge.rs", 30, [("avx512-butnotyet", false)]⟩]⟩,
  ⟨.merge_interleaved, ⟨.i, 1, 64⟩, none, [⟨"intrin/merge.rs", 30, [("avx512-butnotyet", true)]⟩, ⟨"intrin/merge.rs", 30, [("avx512-butnotyet", false)]⟩]⟩,
  ⟨.merge_partitioned, ⟨.i, 1, 64⟩, none, [⟨"intrin/merge.rs", 30, [("avx512-butnotyet", true)]⟩, ⟨"intrin/merge.rs", 30, [("avx512-butnotyet", false)]⟩]⟩,
  ⟨.merge_halves, ⟨.i, 2, 8⟩, none, [⟨"intrin/merge.rs", 32, [("sse4.1", true)]⟩, ⟨"intrin/merge.rs", 32, [("sse4.1", false)]⟩]⟩,
  ⟨.merge_interleaved, ⟨.i, 2, 8⟩, none, [⟨"intrin/merge.rs", 32, [("sse4.1", true)]⟩, ⟨"intrin/merge.rs", 32, [("sse4.1", false)]⟩]⟩,
  ⟨.merge_partitioned, ⟨.i, 2, 8⟩, none, [⟨"intrin/merge.rs", 32, [("sse4.1", true)]⟩, ⟨"intrin/merge.rs", 32, [("sse4.1", false)]⟩]⟩,
  ⟨.merge_halves, ⟨.i, 2, 16⟩, none, [⟨"intrin/merge.rs", 33, [("avx2", true)]⟩, ⟨"intrin/merge.rs", 33, [("avx2", false)]⟩]⟩,
  ⟨.merge_interleaved, ⟨.i, 2, 16⟩, none, [⟨"intrin/merge.rs", 33, [("avx2", true)]⟩, ⟨"intrin/merge.rs", 33, [("avx2", false)]⟩]⟩,
  ⟨.merge_partitioned, ⟨.i, 2, 16⟩, none, [⟨"intrin/merge.rs", 33, [("avx2", true)]⟩, ⟨"intrin/merge.rs", 33, [("avx2", false)]⟩]⟩,
  ⟨.merge_halves, ⟨.i, 2, 32⟩, none, [⟨"intrin/merge.rs", 34, [("avx512-butnotyet", true)]⟩, ⟨"intrin/merge.rs", 34, [("avx512-butnotyet", false)]⟩]⟩,
  ⟨.merge_interleaved, ⟨.i, 2, 32⟩, none, [⟨"intrin/merge.rs", 34, [("avx512-butnotyet", true)]⟩, ⟨"intrin/merge.rs", 34, [("avx512-butnotyet", false)]⟩]⟩,
  ⟨.merge_partitioned, ⟨.i, 2, 32⟩, none, [⟨"intrin/merge.rs", 34, [("avx512-butnotyet", true)]⟩, ⟨"intrin/merge.rs", 34, [("avx512-butnotyet", false)]⟩]⟩,
  ⟨.merge_halves, ⟨.i, 4, 4⟩, none, [⟨"intrin/merge.rs", 36, [("sse4.1", true)]⟩, ⟨"intrin/merge.rs", 36, [("sse4.1", false)]⟩]⟩,
  ⟨.merge_interleaved, ⟨.i, 4, 4⟩, none, [⟨"intrin/merge.rs", 36, [("sse4.1", true)]⟩, ⟨"intrin/merge.rs", 36, [("sse4.1", false)]⟩]⟩,
  ⟨.merge_partitioned, ⟨.i, 4, 4⟩, none, [⟨"intrin/merge.rs", 36, [("sse4.1", true)]⟩, ⟨"intrin/merge.rs", 36, [("sse4.1", false)]⟩]⟩,
  ⟨.merge_halves, ⟨.i, 4, 8⟩, none, [⟨"intrin/merge.rs", 37, [("avx2", true)]⟩, ⟨"intrin/merge.rs", 37, [("avx2", false)]⟩]⟩,
  ⟨.merge_interleaved, ⟨.i, 4, 8⟩, none, [⟨"intrin/merge.rs", 37, [("avx2", true)]⟩, ⟨"intrin/merge.rs", 37, [("avx2", false)]⟩]⟩,
  ⟨.merge_partitioned, ⟨.i, 4, 8⟩, none, [⟨"intrin/merge.rs", 37, [("avx2", true)]⟩, ⟨"intrin/merge.rs", 37, [("avx2", false)]⟩]⟩,
  ⟨.merge_halves, ⟨.i, 4, 16⟩, none, [⟨"intrin/merge.rs", 38, [("avx512-butnotyet", true)]⟩, ⟨"intrin/merge.rs", 38, [("avx512-butnotyet", false)]⟩]⟩,
  ⟨.merge_interleaved, ⟨.i, 4, 16⟩, none, [⟨"intrin/merge.rs", 38, [("avx512-butnotyet", true)]⟩, ⟨"intrin/merge.rs", 38, [("avx512-butnotyet", false)]⟩]⟩,
  ⟨.merge_partitioned, ⟨.i, 4, 16⟩, none, [⟨"intrin/merge.rs", 38, [("avx512-butnotyet", true)]⟩, ⟨"intrin/merge.rs", 38, [("avx512-butnotyet", false)]⟩]⟩,
  ⟨.merge_halves, ⟨.i, 8, 2⟩, none, [⟨"intrin/merge.rs", 40, [("sse4.1", true)]⟩, ⟨"intrin/merge.rs", 40, [("sse4.1", false)]⟩]⟩,
  ⟨.merge_interleaved, ⟨.i, 8, 2⟩, none, [⟨"intrin/merge.rs", 40, [("sse4.1", true)]⟩, ⟨"intrin/merge.rs", 40, [("sse4.1", false)]⟩]⟩,
  ⟨.merge_partitioned, ⟨.i, 8, 2⟩, none, [⟨"intrin/merge.rs", 40, [("sse4.1", true)]⟩, ⟨"intrin/merge.rs", 40, [("sse4.1", false)]⟩]⟩,
  ⟨.merge_halves, ⟨.i, 8, 4⟩, none, [⟨"intrin/merge.rs", 41, [("avx2", true)]⟩, ⟨"intrin/merge.rs", 41, [("avx2", false)]⟩]⟩,
  ⟨.merge_interleaved, ⟨.i, 8, 4⟩, none, [⟨"intrin/merge.rs", 41, [("avx2", true)]⟩, ⟨"intrin/merge.rs", 41, [("avx2", false)]⟩]⟩,
  ⟨.merge_partitioned, ⟨.i, 8, 4⟩, none, [⟨"intrin/merge.rs", 41, [("avx2", true)]⟩, ⟨"intrin/merge.rs", 41, [("avx2", false)]⟩]⟩,
  ⟨.merge_halves, ⟨.i, 8, 8⟩, none, [⟨"intrin/merge.rs", 42, [("avx512-butnotyet", true)]⟩, ⟨"intrin/merge.rs", 42, [("avx512-butnotyet", false)]⟩]⟩,
  ⟨.merge_interleaved, ⟨.i, 8, 8⟩, none, [⟨"intrin/merge.rs", 42, [("avx512-butnotyet", true)]⟩, ⟨"intrin/merge.rs", 42, [("avx512-butnotyet", false)]⟩]⟩,
  ⟨.merge_partitioned, ⟨.i, 8, 8⟩, none, [⟨"intrin/merge.rs", 42, [("avx512-butnotyet", true)]⟩, ⟨"intrin/merge.rs", 42, [("avx512-butnotyet", false)]⟩]⟩,
  ⟨.merge_halves, ⟨.f, 4, 4⟩, none, [⟨"intrin/merge.rs", 44, [("sse4.1", true)]⟩, ⟨"intrin/merge.rs", 44, [("sse4.1", false)]⟩]⟩,
  ⟨.merge_interleaved, ⟨.f, 4, 4⟩, none, [⟨"intrin/merge.rs", 44, [("sse4.1", true)]⟩, ⟨"intrin/merge.rs", 44, [("sse4.1", false)]⟩]⟩,
  ⟨.merge_partitioned, ⟨.f, 4, 4⟩, none, [⟨"intrin/merge.rs", 44, [("sse4.1", true)]⟩, ⟨"intrin/merge.rs", 44, [("sse4.1", false)]⟩]⟩,
  ⟨.merge_halves, ⟨.f, 4, 8⟩, none, [⟨"intrin/merge.rs", 45, [("avx2", true)]⟩, ⟨"intrin/merge.rs", 45, [("avx2", false)]⟩]⟩,
  ⟨.merge_interleaved, ⟨.f, 4, 8⟩, none, [⟨"intrin/merge.rs", 45, [("avx2", true)]⟩, ⟨"intrin/merge.rs", 45, [("avx2", false)]⟩]⟩,
  ⟨.merge_partitioned, ⟨.f, 4, 8⟩, none, [⟨"intrin/merge.rs", 45, [("avx2", true)]⟩, ⟨"intrin/merge.rs", 45, [("avx2", false)]⟩]⟩,
  ⟨.merge_halves, ⟨.f, 4, 16⟩, none, [⟨"intrin/merge.rs", 46, [("avx512-butnotyet", true)]⟩, ⟨"intrin/merge.rs", 46, [("avx512-butnotyet", false)]⟩]⟩,
  ⟨.merge_interleaved, ⟨.f, 4, 16⟩, none, [⟨"intrin/merge.rs", 46, [("avx512-butnotyet", true)]⟩, ⟨"intrin/merge.rs", 46, [("avx512-butnotyet", false)]⟩]⟩,
  ⟨.merge_partitioned, ⟨.f, 4, 16⟩, none, [⟨"intrin/merge.rs", 46, [("avx512-butnotyet", true)]⟩, ⟨"intrin/merge.rs", 46, [("avx512-butnotyet", false)]⟩]⟩,
  ⟨.merge_halves, ⟨.f, 8, 2⟩, none, [⟨"intrin/merge.rs", 48, [("sse4.1", true)]⟩, ⟨"intrin/merge.rs", 48, [("sse4.1", false)]⟩]⟩,
  ⟨.merge_interleaved, ⟨.f, 8, 2⟩, none, [⟨"intrin/merge.rs", 48, [("sse4.1", true)]⟩, ⟨"intrin/merge.rs", 48, [("sse4.1", false)]⟩]⟩,
  ⟨.merge_partitioned, ⟨.f, 8, 2⟩, none, [⟨"intrin/merge.rs", 48, [("sse4.1", true)]⟩, ⟨"intrin/merge.rs", 48, [("sse4.1", false)]⟩]⟩,
  ⟨.merge_halves, ⟨.f, 8, 4⟩, none, [⟨"intrin/merge.rs", 49, [("avx2", true)]⟩, ⟨"intrin/merge.rs", 49, [("avx2", false)]⟩]⟩,
  ⟨.merge_interleaved, ⟨.f, 8, 4⟩, none, [⟨"intrin/merge.rs", 49, [("avx2", true)]⟩, ⟨"intrin/merge.rs", 49, [("avx2", false)]⟩]⟩,
  ⟨.merge_partitioned, ⟨.f, 8, 4⟩, none, [⟨"intrin/merge.rs", 49, [("avx2", true)]⟩, ⟨"intrin/merge.rs", 49, [("avx2", false)]⟩]⟩,
  ⟨.merge_halves, ⟨.f, 8, 8⟩, none, [⟨"intrin/merge.rs", 50, [("avx512-butnotyet", true)]⟩, ⟨"intrin/merge.rs", 50, [("avx512-butnotyet", false)]⟩]⟩,
  ⟨.merge_interleaved, ⟨.f, 8, 8⟩, none, [⟨"intrin/merge.rs", 50, [("avx512-butnotyet", true)]⟩, ⟨"intrin/merge.rs", 50, [("avx512-butnotyet", false)]⟩]⟩,
  ⟨.merge_partitioned, ⟨.f, 8, 8⟩, none, [⟨"intrin/merge.rs", 50, [("avx512-butnotyet", true)]⟩, ⟨"intrin/merge.rs", 50, [("avx512-butnotyet", false)]⟩]⟩,
  ⟨.popcnt128, ⟨.u, 1, 16⟩, none, [⟨"intrin/popcnt.rs", 21, [("ssse3", true)]⟩, ⟨"intrin/popcnt.rs", 36, [("ssse3", false)]⟩]⟩,
  ⟨.popcnt256, ⟨.u, 1, 32⟩, none, [⟨"intrin/popcnt.rs", 43, [("avx2", true)]⟩, ⟨"intrin/popcnt.rs", 59, [("avx2", false)]⟩]⟩,
  ⟨.popcnt512, ⟨.u, 1, 64⟩, none, [⟨"intrin/popcnt.rs", 66, []⟩]⟩,
  ⟨.count_ones, ⟨.u, 1, 64⟩, none, [⟨"intrin/popcnt.rs", 71, []⟩]⟩,
  ⟨.count_ones, ⟨.u, 1, 32⟩, none, [⟨"intrin/popcnt.rs", 71, []⟩]⟩,
  ⟨.count_ones, ⟨.u, 1, 16⟩, none, [⟨"intrin/popcnt.rs", 71, []⟩]⟩,
  ⟨.count_ones, ⟨.i, 1, 64⟩, none, [⟨"intrin/popcnt.rs", 72, []⟩]⟩,
  ⟨.count_ones, ⟨.i, 1, 32⟩, none, [⟨"intrin/popcnt.rs", 72, []⟩]⟩,
  ⟨.count_ones, ⟨.i, 1, 16⟩, none, [⟨"intrin/popcnt.rs", 72, []⟩]⟩,
  ⟨.count_ones, ⟨.u, 2, 32⟩, none, [⟨"intrin/popcnt.rs", 73, []⟩]⟩,
  ⟨.count_ones, ⟨.u, 2, 16⟩, none, [⟨"intrin/popcnt.rs", 73, []⟩]⟩,
  ⟨.count_ones, ⟨.u, 2, 8⟩, none, [⟨"intrin/popcnt.rs", 73, []⟩]⟩,
  ⟨.count_ones, ⟨.i, 2, 32⟩, none, [⟨"intrin/popcnt.rs", 74, []⟩]⟩,
  ⟨.count_ones, ⟨.i, 2, 16⟩, none, [⟨"intrin/popcnt.rs", 74, []⟩]⟩,
  ⟨.count_ones, ⟨.i, 2, 8⟩, none, [⟨"intrin/popcnt.rs", 74, []⟩]⟩,
  ⟨.count_ones, ⟨.u, 4, 16⟩, none, [⟨"intrin/popcnt.rs", 75, []⟩]⟩,
  ⟨.count_ones, ⟨.u, 4, 8⟩, none, [⟨"intrin/popcnt.rs", 75, []⟩]⟩,
  ⟨.count_ones, ⟨.u, 4, 4⟩, none, [⟨"intrin/popcnt.rs", 75, []⟩]⟩,
  ⟨.count_ones, ⟨.i, 4, 16⟩, none, [⟨"intrin/popcnt.rs", 76, []⟩]⟩,
  ⟨.count_ones, ⟨.i, 4, 8⟩, none, [⟨"intrin/popcnt.rs", 76, []⟩]⟩,
  ⟨.count_ones, ⟨.i, 4, 4⟩, none, [⟨"intrin/popcnt.rs", 76, []⟩]⟩,
  ⟨.count_ones, ⟨.u, 8, 8⟩, none, [⟨"intrin/popcnt.rs", 77, []⟩]⟩,
  ⟨.count_ones, ⟨.u, 8, 4⟩, none, [⟨"intrin/popcnt.rs", 77, []⟩]⟩,
  ⟨.count_ones, ⟨.u, 8, 2⟩, none, [⟨"intrin/popcnt.rs", 77, []⟩]⟩,
  ⟨.count_ones, ⟨.i, 8, 8⟩, none, [⟨"intrin/popcnt.rs", 78, []⟩]⟩,
  ⟨.count_ones, ⟨.i, 8, 4⟩, none, [⟨"intrin/popcnt.rs", 78, []⟩]⟩,
  ⟨.count_ones, ⟨.i, 8, 2⟩, none, [⟨"intrin/popcnt.rs", 78, []⟩]⟩,
  ⟨.recip, ⟨.f, 4, 8⟩, none, [⟨"intrin/recip.rs", 14, [("avx", true)]⟩, ⟨"intrin/recip.rs", 14, [("avx", false)]⟩]⟩,
  ⟨.recip, ⟨.f, 4, 4⟩, none, [⟨"intrin/recip.rs", 20, [("sse", true)]⟩, ⟨"intrin/recip.rs", 20, [("sse", false)]⟩]⟩,
  ⟨.round, ⟨.f, 4, 4⟩, none, [⟨"intrin/round.rs", 15, [("sse4.1", true)]⟩, ⟨"intrin/round.rs", 15, [("sse4.1", false)]⟩]⟩,
  ⟨.ceil, ⟨.f, 4, 4⟩, none, [⟨"intrin/round.rs", 15, [("sse4.1", true)]⟩, ⟨"intrin/round.rs", 15, [("sse4.1", false)]⟩]⟩,
  ⟨.floor, ⟨.f, 4, 4⟩, none, [⟨"intrin/round.rs", 15, [("sse4.1", true)]⟩, ⟨"intrin/round.rs", 15, [("sse4.1", false)]⟩]⟩,
  ⟨.trunc, ⟨.f, 4, 4⟩, none, [⟨"intrin/round.rs", 15, [("sse4.1", true)]⟩, ⟨"intrin/round.rs", 15, [("sse4.1", false)]⟩]⟩,
  ⟨.round, ⟨.f, 8, 2⟩, none, [⟨"intrin/round.rs", 24, [("sse4.1", true)]⟩, ⟨"intrin/round.rs", 24, [("sse4.1", false)]⟩]⟩,
  ⟨.ceil, ⟨.f, 8, 2⟩, none, [⟨"intrin/round.rs", 24, [("sse4.1", true)]⟩, ⟨"intrin/round.rs", 24, [("sse4.1", false)]⟩]⟩,
  ⟨.floor, ⟨.f, 8, 2⟩, none, [⟨"intrin/round.rs", 24, [("sse4.1", true)]⟩, ⟨"intrin/round.rs", 24, [("sse4.1", false)]⟩]⟩,
  ⟨.trunc, ⟨.f, 8, 2⟩, none, [⟨"intrin/round.rs", 24, [("sse4.1", true)]⟩, ⟨"intrin/round.rs", 24, [("sse4.1", false)]⟩]⟩,
  ⟨.round, ⟨.f, 4, 8⟩, none, [⟨"intrin/round.rs", 33, [("avx", true)]⟩, ⟨"intrin/round.rs", 33, [("avx", false)]⟩]⟩,
  ⟨.ceil, ⟨.f, 4, 8⟩, none, [⟨"intrin/round.rs", 33, [("avx", true)]⟩, ⟨"intrin/round.rs", 33, [("avx", false)]⟩]⟩,
  ⟨.floor, ⟨.f, 4, 8⟩, none, [⟨"intrin/round.rs", 33, [("avx", true)]⟩, ⟨"intrin/round.rs", 33, [("avx", false)]⟩]⟩,
  ⟨.trunc, ⟨.f, 4, 8⟩, none, [⟨"intrin/round.rs", 33, [("avx", true)]⟩, ⟨"intrin/round.rs", 33, [("avx", false)]⟩]⟩,
  ⟨.round, ⟨.f, 8, 4⟩, none, [⟨"intrin/round.rs", 42, [("sse4.1", true)]⟩, ⟨"intrin/round.rs", 42, [("sse4.1", false)]⟩]⟩,
  ⟨.ceil, ⟨.f, 8, 4⟩, none, [⟨"intrin/round.rs", 42, [("sse4.1", true)]⟩, ⟨"intrin/round.rs", 42, [("sse4.1", false)]⟩]⟩,
  ⟨.floor, ⟨.f, 8, 4⟩, none, [⟨"intrin/round.rs", 42, [("sse4.1", true)]⟩, ⟨"intrin/round.rs", 42, [("sse4.1", false)]⟩]⟩,
  ⟨.trunc, ⟨.f, 8, 4⟩, none, [⟨"intrin/round.rs", 42, [("sse4.1", true)]⟩, ⟨"intrin/round.rs", 42, [("sse4.1", false)]⟩]⟩,
  ⟨.rsqrt, ⟨.f, 4, 8⟩, none, [⟨"intrin/rsqrt.rs", 16, [("avx", true)]⟩, ⟨"intrin/rsqrt.rs", 16, [("avx", false)]⟩]⟩,
  ⟨.rsqrt, ⟨.f, 4, 4⟩, none, [⟨"intrin/rsqrt.rs", 22, [("sse", true)]⟩, ⟨"intrin/rsqrt.rs", 22, [("sse", false)]⟩]⟩,
  ⟨.saturating_add, ⟨.u, 1, 16⟩, none, [⟨"intrin/saturating_add.rs", 14, [("sse2", true)]⟩, ⟨"intrin/saturating_add.rs", 14, [("sse2", false)]⟩]⟩,
  ⟨.saturating_add, ⟨.i, 1, 16⟩, none, [⟨"intrin/saturating_add.rs", 20, [("sse2", true)]⟩, ⟨"intrin/saturating_add.rs", 20, [("sse2", false)]⟩]⟩,
  ⟨.saturating_add, ⟨.u, 2, 8⟩, none, [⟨"intrin/saturating_add.rs", 26, [("sse2", true)]⟩, ⟨"intrin/saturating_add.rs", 26, [("sse2", false)]⟩]⟩,
  ⟨.saturating_add, ⟨.i, 2, 8⟩, none, [⟨"intrin/saturating_add.rs", 32, [("sse2", true)]⟩, ⟨"intrin/saturating_add.rs", 32, [("sse2", false)]⟩]⟩,
  ⟨.saturating_add, ⟨.u, 1, 32⟩, none, [⟨"intrin/saturating_add.rs", 38, [("avx2", true)]⟩, ⟨"intrin/saturating_add.rs", 38, [("avx2", false)]⟩]⟩,
  ⟨.saturating_add, ⟨.i, 1, 32⟩, none, [⟨"intrin/saturating_add.rs", 46, [("avx2", true)]⟩, ⟨"intrin/saturating_add.rs", 46, [("avx2", false)]⟩]⟩,
  ⟨.saturating_add, ⟨.u, 2, 16⟩, none, [⟨"intrin/saturating_add.rs", 53, [("avx2", true)]⟩, ⟨"intrin/saturating_add.rs", 53, [("avx2", false)]⟩]⟩,
  ⟨.saturating_add, ⟨.i, 2, 16⟩, none, [⟨"intrin/saturating_add.rs", 59, [("avx2", true)]⟩, ⟨"intrin/saturating_add.rs", 59, [("avx2", false)]⟩]⟩,
  ⟨.saturating_hadd, ⟨.i, 2, 8⟩, none, [⟨"intrin/saturating_hadd.rs", 18, [("ssse3", true)]⟩, ⟨"intrin/saturating_hadd.rs", 54, [("ssse3", false)]⟩]⟩,
  ⟨.saturating_hadd, ⟨.i, 2, 16⟩, none, [⟨"intrin/saturating_hadd.rs", 28, [("avx2", true)]⟩, ⟨"intrin/saturating_hadd.rs", 56, [("avx2", false)]⟩]⟩,
  ⟨.saturating_hadd, ⟨.u, 8, 2⟩, none, [⟨"intrin/saturating_hadd.rs", 35, []⟩]⟩,
  ⟨.saturating_hadd, ⟨.u, 8, 4⟩, none, [⟨"intrin/saturating_hadd.rs", 36, []⟩]⟩,
  ⟨.saturating_hadd, ⟨.u, 8, 8⟩, none, [⟨"intrin/saturating_hadd.rs", 37, []⟩]⟩,
  ⟨.saturating_hadd, ⟨.u, 4, 4⟩, none, [⟨"intrin/saturating_hadd.rs", 38, []⟩]⟩,
  ⟨.saturating_hadd, ⟨.u, 4, 8⟩, none, [⟨"intrin/saturating_hadd.rs", 39, []⟩]⟩,
  ⟨.saturating_hadd, ⟨.u, 4, 16⟩, none, [⟨"intrin/saturating_hadd.rs", 40, []⟩]⟩,
  ⟨.saturating_hadd, ⟨.u, 2, 8⟩, none, [⟨"intrin/saturating_hadd.rs", 41, []⟩]⟩,
  ⟨.saturating_hadd, ⟨.u, 2, 16⟩, none, [⟨"intrin/saturating_hadd.rs", 42, []⟩]⟩,
  ⟨.saturating_hadd, ⟨.u, 2, 32⟩, none, [⟨"intrin/saturating_hadd.rs", 43, []⟩]⟩,
  ⟨.saturating_hadd, ⟨.u, 1, 16⟩, none, [⟨"intrin/saturating_hadd.rs", 44, []⟩]⟩,
  ⟨.saturating_hadd, ⟨.u, 1, 32⟩, none, [⟨"intrin/saturating_hadd.rs", 45, []⟩]⟩,
  ⟨.saturating_hadd, ⟨.u, 1, 64⟩, none, [⟨"intrin/saturating_hadd.rs", 46, []⟩]⟩,
  ⟨.saturating_hadd, ⟨.i, 8, 2⟩, none, [⟨"intrin/saturating_hadd.rs", 47, []⟩]⟩,
  ⟨.saturating_hadd, ⟨.i, 8, 4⟩, none, [⟨"intrin/saturating_hadd.rs", 48, []⟩]⟩,
  ⟨.saturating_hadd, ⟨.i, 8, 8⟩, none, [⟨"intrin/saturating_hadd.rs", 49, []⟩]⟩,
  ⟨.saturating_hadd, ⟨.i, 4, 4⟩, none, [⟨"intrin/saturating_hadd.rs", 50, []⟩]⟩,
  ⟨.saturating_hadd, ⟨.i, 4, 8⟩, none, [⟨"intrin/saturating_hadd.rs", 51, []⟩]⟩,
  ⟨.saturating_hadd, ⟨.i, 4, 16⟩, none, [⟨"intrin/saturating_hadd.rs", 52, []⟩]⟩,
  ⟨.saturating_hadd, ⟨.i, 2, 32⟩, none, [⟨"intrin/saturating_hadd.rs", 57, []⟩]⟩,
  ⟨.saturating_hadd, ⟨.i, 1, 16⟩, none, [⟨"intrin/saturating_hadd.rs", 58, []⟩]⟩,
  ⟨.saturating_hadd, ⟨.i, 1, 32⟩, none, [⟨"intrin/saturating_hadd.rs", 59, []⟩]⟩,
  ⟨.saturating_hadd, ⟨.i, 1, 64⟩, none, [⟨"intrin/saturating_hadd.rs", 60, []⟩]⟩,
  ⟨.saturating_hsub, ⟨.i, 2, 8⟩, none, [⟨"intrin/saturating_hsub.rs", 18, [("ssse3", true)]⟩, ⟨"intrin/saturating_hsub.rs", 54, [("ssse3", false)]⟩]⟩,
  ⟨.saturating_hsub, ⟨.i, 2, 16⟩, none, [⟨"intrin/saturating_hsub.rs", 28, [("avx2", true)]⟩, ⟨"intrin/saturating_hsub.rs", 56, [("avx2", false)]⟩]⟩,
  ⟨.saturating_hsub, ⟨.u, 8, 2⟩, none, [⟨"intrin/saturating_hsub.rs", 35, []⟩]⟩,
  ⟨.saturating_hsub, ⟨.u, 8, 4⟩, none, [⟨"intrin/saturating_hsub.rs", 36, []⟩]⟩,
  ⟨.saturating_hsub, ⟨.u, 8, 8⟩, none, [⟨"intrin/saturating_hsub.rs", 37, []⟩]⟩,
  ⟨.saturating_hsub, ⟨.u, 4, 4⟩, none, [⟨"intrin/saturating_hsub.rs", 38, []⟩]⟩,
  ⟨.saturating_hsub, ⟨.u, 4, 8⟩, none, [⟨"intrin/saturating_hsub.rs", 39, []⟩]⟩,
  ⟨.saturating_hsub, ⟨.u, 4, 16⟩, none, [⟨"intrin/saturating_hsub.rs", 40, []⟩]⟩,
  ⟨.saturating_hsub, ⟨.u, 2, 8⟩, none, [⟨"intrin/saturating_hsub.rs", 41, []⟩]⟩,
  ⟨.saturating_hsub, ⟨.u, 2, 16⟩, none, [⟨"intrin/saturating_hsub.rs", 42, []⟩]⟩,
  ⟨.saturating_hsub, ⟨.u, 2, 32⟩, none, [⟨"intrin/saturating_hsub.rs", 43, []⟩]⟩,
  ⟨.saturating_hsub, ⟨.u, 1, 16⟩, none, [⟨"intrin/saturating_hsub.rs", 44, []⟩]⟩,
  ⟨.saturating_hsub, ⟨.u, 1, 32⟩, none, [⟨"intrin/saturating_hsub.rs", 45, []⟩]⟩,
  ⟨.saturating_hsub, ⟨.u, 1, 64⟩, none, [⟨"intrin/saturating_hsub.rs", 46, []⟩]⟩,
  ⟨.saturating_hsub, ⟨.i, 8, 2⟩, none, [⟨"intrin/saturating_hsub.rs", 47, []⟩]⟩,
  ⟨.saturating_hsub, ⟨.i, 8, 4⟩, none, [⟨"intrin/saturating_hsub.rs", 48, []⟩]⟩,
  ⟨.saturating_hsub, ⟨.i, 8, 8⟩, none, [⟨"intrin/saturating_hsub.rs", 49, []⟩]⟩,
  ⟨.saturating_hsub, ⟨.i, 4, 4⟩, none, [⟨"intrin/saturating_hsub.rs", 50, []⟩]⟩,
  ⟨.saturating_hsub, ⟨.i, 4, 8⟩, none, [⟨"intrin/saturating_hsub.rs", 51, []⟩]⟩,
  ⟨.saturating_hsub, ⟨.i, 4, 16⟩, none, [⟨"intrin/saturating_hsub.rs", 52, []⟩]⟩,
  ⟨.saturating_hsub, ⟨.i, 2, 32⟩, none, [⟨"intrin/saturating_hsub.rs", 57, []⟩]⟩,
  ⟨.saturating_hsub, ⟨.i, 1, 16⟩, none, [⟨"intrin/saturating_hsub.rs", 58, []⟩]⟩,
  ⟨.saturating_hsub, ⟨.i, 1, 32⟩, none, [⟨"intrin/saturating_hsub.rs", 59, []⟩]⟩,
  ⟨.saturating_hsub, ⟨.i, 1, 64⟩, none, [⟨"intrin/saturating_hsub.rs", 60, []⟩]⟩,
  ⟨.saturating_sub, ⟨.u, 1, 16⟩, none, [⟨"intrin/saturating_sub.rs", 14, [("sse2", true)]⟩, ⟨"intrin/saturating_sub.rs", 14, [("sse2", false)]⟩]⟩,
  ⟨.saturating_sub, ⟨.i, 1, 16⟩, none, [⟨"intrin/saturating_sub.rs", 20, [("sse2", true)]⟩, ⟨"intrin/saturating_sub.rs", 20, [("sse2", false)]⟩]⟩,
  ⟨.saturating_sub, ⟨.u, 2, 8⟩, none, [⟨"intrin/saturating_sub.rs", 26, [("sse2", true)]⟩, ⟨"intrin/saturating_sub.rs", 26, [("sse2", false)]⟩]⟩,
  ⟨.saturating_sub, ⟨.i, 2, 8⟩, none, [⟨"intrin/saturating_sub.rs", 32, [("sse2", true)]⟩, ⟨"intrin/saturating_sub.rs", 32, [("sse2", false)]⟩]⟩,
  ⟨.saturating_sub, ⟨.u, 1, 32⟩, none, [⟨"intrin/saturating_sub.rs", 38, [("avx2", true)]⟩, ⟨"intrin/saturating_sub.rs", 38, [("avx2", false)]⟩]⟩,
  ⟨.saturating_sub, ⟨.i, 1, 32⟩, none, [⟨"intrin/saturating_sub.rs", 45, [("avx2", true)]⟩, ⟨"intrin/saturating_sub.rs", 45, [("avx2", false)]⟩]⟩,
  ⟨.saturating_sub, ⟨.u, 2, 16⟩, none, [⟨"intrin/saturating_sub.rs", 52, [("avx2", true)]⟩, ⟨"intrin/saturating_sub.rs", 52, [("avx2", false)]⟩]⟩,
  ⟨.saturating_sub, ⟨.i, 2, 16⟩, none, [⟨"intrin/saturating_sub.rs", 58, [("avx2", true)]⟩, ⟨"intrin/saturating_sub.rs", 58, [("avx2", false)]⟩]⟩,
  ⟨.sqrt, ⟨.f, 4, 8⟩, none, [⟨"intrin/sqrt.rs", 14, [("avx", true)]⟩, ⟨"intrin/sqrt.rs", 14, [("avx", false)]⟩]⟩,
  ⟨.sqrt, ⟨.f, 8, 4⟩, none, [⟨"intrin/sqrt.rs", 20, [("avx", true)]⟩, ⟨"intrin/sqrt.rs", 20, [("avx", false)]⟩]⟩,
  ⟨.sqrt, ⟨.f, 4, 4⟩, none, [⟨"intrin/sqrt.rs", 26, [("sse", true)]⟩, ⟨"intrin/sqrt.rs", 26, [("sse", false)]⟩]⟩,
  ⟨.sqrt, ⟨.f, 8, 2⟩, none, [⟨"intrin/sqrt.rs", 32, [("sse2", true)]⟩, ⟨"intrin/sqrt.rs", 32, [("sse2", false)]⟩]⟩,
  ⟨.sum, ⟨.i, 1, 16⟩, none, [⟨"intrin/sum.rs", 31, [("sse2", true)]⟩, ⟨"intrin/sum.rs", 274, [("sse2", false)]⟩]⟩,
  ⟨.sum_upcast, ⟨.i, 1, 16⟩, none, [⟨"intrin/sum.rs", 43, [("sse2", true)]⟩, ⟨"intrin/sum.rs", 276, [("sse2", false)]⟩]⟩,
  ⟨.sum, ⟨.i, 1, 32⟩, none, [⟨"intrin/sum.rs", 55, [("avx2", true)]⟩, ⟨"intrin/sum.rs", 263, [("avx2", false)]⟩]⟩,
  ⟨.sum_upcast, ⟨.i, 1, 32⟩, none, [⟨"intrin/sum.rs", 69, [("avx2", true)]⟩, ⟨"intrin/sum.rs", 265, [("avx2", false)]⟩]⟩,
  ⟨.sum, ⟨.u, 1, 16⟩, none, [⟨"intrin/sum.rs", 83, [("sse2", true)]⟩, ⟨"intrin/sum.rs", 274, [("sse2", false)]⟩]⟩,
  ⟨.sum_upcast, ⟨.u, 1, 16⟩, none, [⟨"intrin/sum.rs", 93, [("sse2", true)]⟩, ⟨"intrin/sum.rs", 276, [("sse2", false)]⟩]⟩,
  ⟨.sum, ⟨.u, 1, 32⟩, none, [⟨"intrin/sum.rs", 103, [("avx2", true)]⟩, ⟨"intrin/sum.rs", 263, [("avx2", false)]⟩]⟩,
  ⟨.sum_upcast, ⟨.u, 1, 32⟩, none, [⟨"intrin/sum.rs", 113, [("avx2", true)]⟩, ⟨"intrin/sum.rs", 265, [("avx2", false)]⟩]⟩,
  ⟨.sum, ⟨.i, 2, 8⟩, none, [⟨"intrin/sum.rs", 123, [("ssse3", true)]⟩, ⟨"intrin/sum.rs", 279, [("ssse3", false)]⟩]⟩,
  ⟨.sum, ⟨.i, 2, 16⟩, none, [⟨"intrin/sum.rs", 137, [("avx2", true)]⟩, ⟨"intrin/sum.rs", 263, [("avx2", false)]⟩]⟩,
  ⟨.sum_upcast, ⟨.i, 2, 16⟩, none, [⟨"intrin/sum.rs", 151, [("avx2", true)]⟩, ⟨"intrin/sum.rs", 265, [("avx2", false)]⟩]⟩,
  ⟨.sum, ⟨.u, 2, 16⟩, none, [⟨"intrin/sum.rs", 167, [("avx2", true)]⟩, ⟨"intrin/sum.rs", 263, [("avx2", false)]⟩]⟩,
  ⟨.sum_upcast, ⟨.u, 2, 16⟩, none, [⟨"intrin/sum.rs", 183, [("avx2", true)]⟩, ⟨"intrin/sum.rs", 265, [("avx2", false)]⟩]⟩,
  ⟨.sum, ⟨.i, 4, 8⟩, none, [⟨"intrin/sum.rs", 199, [("avx2", true)]⟩, ⟨"intrin/sum.rs", 263, [("avx2", false)]⟩]⟩,
  ⟨.sum, ⟨.f, 4, 4⟩, none, [⟨"intrin/sum.rs", 212, [("sse3", true)]⟩, ⟨"intrin/sum.rs", 271, [("sse3", false)]⟩]⟩,
  ⟨.sum, ⟨.f, 8, 2⟩, none, [⟨"intrin/sum.rs", 225, [("sse3", true)]⟩, ⟨"intrin/sum.rs", 271, [("sse3", false)]⟩]⟩,
  ⟨.sum, ⟨.f, 4, 8⟩, none, [⟨"intrin/sum.rs", 237, [("avx", true)]⟩, ⟨"intrin/sum.rs", 268, [("avx", false)]⟩]⟩,
  ⟨.sum, ⟨.f, 8, 4⟩, none, [⟨"intrin/sum.rs", 250, [("avx", true)]⟩, ⟨"intrin/sum.rs", 268, [("avx", false)]⟩]⟩,
  ⟨.sum, ⟨.u, 1, 64⟩, none, [⟨"intrin/sum.rs", 259, []⟩]⟩,
  ⟨.sum, ⟨.i, 1, 64⟩, none, [⟨"intrin/sum.rs", 259, []⟩]⟩,
  ⟨.sum, ⟨.u, 2, 32⟩, none, [⟨"intrin/sum.rs", 259, []⟩]⟩,
  ⟨.sum, ⟨.u, 2, 8⟩, none, [⟨"intrin/sum.rs", 259, []⟩]⟩,
  ⟨.sum, ⟨.i, 2, 32⟩, none, [⟨"intrin/sum.rs", 259, []⟩]⟩,
  ⟨.sum, ⟨.u, 4, 16⟩, none, [⟨"intrin/sum.rs", 259, []⟩]⟩,
  ⟨.sum, ⟨.u, 4, 8⟩, none, [⟨"intrin/sum.rs", 259, []⟩]⟩,
  ⟨.sum, ⟨.u, 4, 4⟩, none, [⟨"intrin/sum.rs", 259, []⟩]⟩,
  ⟨.sum, ⟨.i, 4, 16⟩, none, [⟨"intrin/sum.rs", 259, []⟩]⟩,
  ⟨.sum, ⟨.i, 4, 4⟩, none, [⟨"intrin/sum.rs", 259, []⟩]⟩,
  ⟨.sum, ⟨.f, 4, 16⟩, none, [⟨"intrin/sum.rs", 259, []⟩]⟩,
  ⟨.sum, ⟨.u, 8, 8⟩, none, [⟨"intrin/sum.rs", 259, []⟩]⟩,
  ⟨.sum, ⟨.u, 8, 4⟩, none, [⟨"intrin/sum.rs", 259, []⟩]⟩,
  ⟨.sum, ⟨.u, 8, 2⟩, none, [⟨"intrin/sum.rs", 259, []⟩]⟩,
  ⟨.sum, ⟨.i, 8, 8⟩, none, [⟨"intrin/sum.rs", 259, []⟩]⟩,
  ⟨.sum, ⟨.i, 8, 4⟩, none, [⟨"intrin/sum.rs", 259, []⟩]⟩,
  ⟨.sum, ⟨.i, 8, 2⟩, none, [⟨"intrin/sum.rs", 259, []⟩]⟩,
  ⟨.sum, ⟨.f, 8, 8⟩, none, [⟨"intrin/sum.rs", 259, []⟩]⟩,
  ⟨.sum_upcast, ⟨.u, 1, 64⟩, none, [⟨"intrin/sum.rs", 260, []⟩]⟩,
  ⟨.sum_upcast, ⟨.i, 1, 64⟩, none, [⟨"intrin/sum.rs", 260, []⟩]⟩,
  ⟨.sum_upcast, ⟨.u, 2, 32⟩, none, [⟨"intrin/sum.rs", 260, []⟩]⟩,
  ⟨.sum_upcast, ⟨.u, 2, 8⟩, none, [⟨"intrin/sum.rs", 260, []⟩]⟩,
  ⟨.sum_upcast, ⟨.i, 2, 32⟩, none, [⟨"intrin/sum.rs", 260, []⟩]⟩,
  ⟨.sum_upcast, ⟨.i, 2, 8⟩, none, [⟨"intrin/sum.rs", 260, []⟩]⟩,
  ⟨.sum_upcast, ⟨.u, 4, 16⟩, none, [⟨"intrin/sum.rs", 260, []⟩]⟩,
  ⟨.sum_upcast, ⟨.u, 4, 8⟩, none, [⟨"intrin/sum.rs", 260, []⟩]⟩,
  ⟨.sum_upcast, ⟨.u, 4, 4⟩, none, [⟨"intrin/sum.rs", 260, []⟩]⟩,
  ⟨.sum_upcast, ⟨.i, 4, 16⟩, none, [⟨"intrin/sum.rs", 260, []⟩]⟩,
  ⟨.sum_upcast, ⟨.i, 4, 8⟩, none, [⟨"intrin/sum.rs", 260, []⟩]⟩,
  ⟨.sum_upcast, ⟨.i, 4, 4⟩, none, [⟨"intrin/sum.rs", 260, []⟩]⟩,
  ⟨.sum_upcast, ⟨.f, 4, 16⟩, none, [⟨"intrin/sum.rs", 260, []⟩]⟩,
  ⟨.sum_upcast, ⟨.f, 4, 8⟩, none, [⟨"intrin/sum.rs", 260, []⟩]⟩,
  ⟨.sum_upcast, ⟨.f, 4, 4⟩, none, [⟨"intrin/sum.rs", 260, []⟩]⟩,
  ⟨.sum_upcast, ⟨.u, 8, 8⟩, none, [⟨"intrin/sum.rs", 260, []⟩]⟩,
  ⟨.sum_upcast, ⟨.u, 8, 4⟩, none, [⟨"intrin/sum.rs", 260, []⟩]⟩,
  ⟨.sum_upcast, ⟨.u, 8, 2⟩, none, [⟨"intrin/sum.rs", 260, []⟩]⟩,
  ⟨.sum_upcast, ⟨.i, 8, 8⟩, none, [⟨"intrin/sum.rs", 260, []⟩]⟩,
  ⟨.sum_upcast, ⟨.i, 8, 4⟩, none, [⟨"intrin/sum.rs", 260, []⟩]⟩,
  ⟨.sum_upcast, ⟨.i, 8, 2⟩, none, [⟨"intrin/sum.rs", 260, []⟩]⟩,
  ⟨.sum_upcast, ⟨.f, 8, 8⟩, none, [⟨"intrin/sum.rs", 260, []⟩]⟩,
  ⟨.sum_upcast, ⟨.f, 8, 4⟩, none, [⟨"intrin/sum.rs", 260, []⟩]⟩,
  ⟨.sum_upcast, ⟨.f, 8, 2⟩, none, [⟨"intrin/sum.rs", 260, []⟩]⟩,
  ⟨.be_i8s, ⟨.u, 1, 32⟩, none, [⟨"intrin/transmute.rs", 15, []⟩]⟩,
  ⟨.be_u8s, ⟨.u, 1, 32⟩, none, [⟨"intrin/transmute.rs", 15, []⟩]⟩,
  ⟨.be_i16s, ⟨.u, 1, 32⟩, none, [⟨"intrin/transmute.rs", 15, []⟩]⟩,
  ⟨.be_u16s, ⟨.u, 1, 32⟩, none, [⟨"intrin/transmute.rs", 15, []⟩]⟩,
  ⟨.be_i32s, ⟨.u, 1, 32⟩, none, [⟨"intrin/transmute.rs", 15, []⟩]⟩,
  ⟨.be_u32s, ⟨.u, 1, 32⟩, none, [⟨"intrin/transmute.rs", 15, []⟩]⟩,
  ⟨.be_f32s_unchecked, ⟨.u, 1, 32⟩, none, [⟨"intrin/transmute.rs", 15, []⟩]⟩,
  ⟨.be_i64s, ⟨.u, 1, 32⟩, none, [⟨"intrin/transmute.rs", 15, []⟩]⟩,
  ⟨.be_u64s, ⟨.u, 1, 32⟩, none, [⟨"intrin/transmute.rs", 15, []⟩]⟩,
  ⟨.be_f64s_unchecked, ⟨.u, 1, 32⟩, none, [⟨"intrin/transmute.rs", 15, []⟩]⟩,
  ⟨.be_i8s, ⟨.i, 1, 32⟩, none, [⟨"intrin/transmute.rs", 15, []⟩]⟩,
  ⟨.be_u8s, ⟨.i, 1, 32⟩, none, [⟨"intrin/transmute.rs", 15, []⟩]⟩,
  ⟨.be_i16s, ⟨.i, 1, 32⟩, none, [⟨"intrin/transmute.rs", 15, []⟩]⟩,
  ⟨.be_u16s, ⟨.i, 1, 32⟩, none, [⟨"intrin/transmute.rs", 15, []⟩]⟩,
  ⟨.be_i32s, ⟨.i, 1, 32⟩, none, [⟨"intrin/transmute.rs", 15, []⟩]⟩,
  ⟨.be_u32s, ⟨.i, 1, 32⟩, none, [⟨"intrin/transmute.rs", 15, []⟩]⟩,
  ⟨.be_f32s_unchecked, ⟨.i, 1, 32⟩, none, [⟨"intrin/transmute.rs", 15, []⟩]⟩,
  ⟨.be_i64s, ⟨.i, 1, 32⟩, none, [⟨"intrin/transmute.rs", 15, []⟩]⟩,
  ⟨.be_u64s, ⟨.i, 1, 32⟩, none, [⟨"intrin/transmute.rs", 15, []⟩]⟩,
  ⟨.be_f64s_unchecked, ⟨.i, 1, 32⟩, none, [⟨"intrin/transmute.rs", 15, []⟩]⟩,
  ⟨.be_i8s, ⟨.u, 2, 16⟩, none, [⟨"intrin/transmute.rs", 15, []⟩]⟩,
  ⟨.be_u8s, ⟨.u, 2, 16⟩, none, [⟨"intrin/transmute.rs", 15, []⟩]⟩,
  ⟨.be_i16s, ⟨.u, 2, 16⟩, none, [⟨"intrin/transmute.rs", 15, []⟩]⟩,
  ⟨.be_u16s, ⟨.u, 2, 16⟩, none, [⟨"intrin/transmute.rs", 15, []⟩]⟩,
  ⟨.be_i32s, ⟨.u, 2, 16⟩, none, [⟨"intrin/transmute.rs", 15, []⟩]⟩,
  ⟨.be_u32s, ⟨.u, 2, 16⟩, none, [⟨"intrin/transmute.rs", 15, []⟩]⟩,
  ⟨.be_f32s_unchecked, ⟨.u, 2, 16⟩, none, [⟨"intrin/transmute.rs", 15, []⟩]⟩,
  ⟨.be_i64s, ⟨.u, 2, 16⟩, none, [⟨"intrin/transmute.rs", 15, []⟩]⟩,
  ⟨.be_u64s, ⟨.u, 2, 16⟩, none, [⟨"intrin/transmute.rs", 15, []⟩]⟩,
  ⟨.be_f64s_unchecked, ⟨.u, 2, 16⟩, none, [⟨"intrin/transmute.rs", 15, []⟩]⟩,
  ⟨.be_i8s, ⟨.i, 2, 16⟩, none, [⟨"intrin/transmute.rs", 15, []⟩]⟩,
  ⟨.be_u8s, ⟨.i, 2, 16⟩, none, [⟨"intrin/transmute.rs", 15, []⟩]⟩,
  ⟨.be_i16s, ⟨.i, 2, 16⟩, none, [⟨"intrin/transmute.rs", 15, []⟩]⟩,
  ⟨.be_u16s, ⟨.i, 2, 16⟩, none, [⟨"intrin/transmute.rs", 15, []⟩]⟩,
  ⟨.be_i32s, ⟨.i, 2, 16⟩, none, [⟨"intrin/transmute.rs", 15, []⟩]⟩,
  ⟨.be_u32s, ⟨.i, 2, 16⟩, none, [⟨"intrin/transmute.rs", 15, []⟩]⟩,
  ⟨.be_f32s_unchecked, ⟨.i, 2, 16⟩, none, [⟨"intrin/transmute.rs", 15, []⟩]⟩,
  ⟨.be_i64s, ⟨.i, 2, 16⟩, none, [⟨"intrin/transmute.rs", 15, []⟩]⟩,
  ⟨.be_u64s, ⟨.i, 2, 16⟩, none, [⟨"intrin/transmute.rs", 15, []⟩]⟩,
  ⟨.be_f64s_unchecked, ⟨.i, 2, 16⟩, none, [⟨"intrin/transmute.rs", 15, []⟩]⟩,
  ⟨.be_i8s, ⟨.u, 4, 8⟩, none, [⟨"intrin/transmute.rs", 15, []⟩]⟩,
  ⟨.be_u8s, ⟨.u, 4, 8⟩, none, [⟨"intrin/transmute.rs", 15, []⟩]⟩,
  ⟨.be_i16s, ⟨.u, 4, 8⟩, none, [⟨"intrin/transmute.rs", 15, []⟩]⟩,
  ⟨.be_u16s, ⟨.u, 4, 8⟩, none, [⟨"intrin/transmute.rs", 15, []⟩]⟩,
  ⟨.be_i32s, ⟨.u, 4, 8⟩, none, [⟨"intrin/transmute.rs", 15, []⟩]⟩,
  ⟨.be_u32s, ⟨.u, 4, 8⟩, none, [⟨"intrin/transmute.rs", 15, []⟩]⟩,
  ⟨.be_f32s_unchecked, ⟨.u, 4, 8⟩, none, [⟨"intrin/transmute.rs", 15, []⟩]⟩,
  ⟨.be_i64s, ⟨.u, 4, 8⟩, none, [⟨"intrin/transmute.rs", 15, []⟩]⟩,
  ⟨.be_u64s, ⟨.u, 4, 8⟩, none, [⟨"intrin/transmute.rs", 15, []⟩]⟩,
  ⟨.be_f64s_unchecked, ⟨.u, 4, 8⟩, none, [⟨"intrin/transmute.rs", 15, []⟩]⟩,
  ⟨.be_i8s, ⟨.i, 4, 8⟩, none, [⟨"intrin/transmute.rs", 15, []⟩]⟩,
  ⟨.be_u8s, ⟨.i, 4, 8⟩, none, [⟨"intrin/transmute.rs", 15, []⟩]⟩,
  ⟨.be_i16s, ⟨.i, 4, 8⟩, none, [⟨"intrin/transmute.rs", 15, []⟩]⟩,
  ⟨.be_u16s, ⟨.i, 4, 8⟩, none, [⟨"intrin/transmute.rs", 15, []⟩]⟩,
  ⟨.be_i32s, ⟨.i, 4, 8⟩, none, [⟨"intrin/transmute.rs", 15, []⟩]⟩,
  ⟨.be_u32s, ⟨.i, 4, 8⟩, none, [⟨"intrin/transmute.rs", 15, []⟩]⟩,
  ⟨.be_f32s_unchecked, ⟨.i, 4, 8⟩, none, [⟨"intrin/transmute.rs", 15, []⟩]⟩,
  ⟨.be_i64s, ⟨.i, 4, 8⟩, none, [⟨"intrin/transmute.rs", 15, []⟩]⟩,
  ⟨.be_u64s, ⟨.i, 4, 8⟩, none, [⟨"intrin/transmute.rs", 15, []⟩]⟩,
  ⟨.be_f64s_unchecked, ⟨.i, 4, 8⟩, none, [⟨"intrin/transmute.rs", 15, []⟩]⟩,
  ⟨.be_i8s, ⟨.f, 4, 8⟩, none, [⟨"intrin/transmute.rs", 15, []⟩]⟩,
  ⟨.be_u8s, ⟨.f, 4, 8⟩, none, [⟨"intrin/transmute.rs", 15, []⟩]⟩,
  ⟨.be_i16s, ⟨.f, 4, 8⟩, none, [⟨"intrin/transmute.rs", 15, []⟩]⟩,
  ⟨.be_u16s, ⟨.f, 4, 8⟩, none, [⟨"intrin/transmute.rs", 15, []⟩]⟩,
  ⟨.be_i32s, ⟨.f, 4, 8⟩, none, [⟨"intrin/transmute.rs", 15, []⟩]⟩,
  ⟨.be_u32s, ⟨.f, 4, 8⟩, none, [⟨"intrin/transmute.rs", 15, []⟩]⟩,
  ⟨.be_f32s_unchecked, ⟨.f, 4, 8⟩, none, [⟨"intrin/transmute.rs", 15, []⟩]⟩,
  ⟨.be_i64s, ⟨.f, 4, 8⟩, none, [⟨"intrin/transmute.rs", 15, []⟩]⟩,
  ⟨.be_u64s, ⟨.f, 4, 8⟩, none, [⟨"intrin/transmute.rs", 15, []⟩]⟩,
  ⟨.be_f64s_unchecked, ⟨.f, 4, 8⟩, none, [⟨"intrin/transmute.rs", 15, []⟩]⟩,
  ⟨.be_i8s, ⟨.u, 8, 4⟩, none, [⟨"intrin/transmute.rs", 15, []⟩]⟩,
  ⟨.be_u8s, ⟨.u, 8, 4⟩, none, [⟨"intrin/transmute.rs", 15, []⟩]⟩,
  ⟨.be_i16s, ⟨.u, 8, 4⟩, none, [⟨"intrin/transmute.rs", 15, []⟩]⟩,
  ⟨.be_u16s, ⟨.u, 8, 4⟩, none, [⟨"intrin/transmute.rs", 15, []⟩]⟩,
  ⟨.be_i32s, ⟨.u, 8, 4⟩, none, [⟨"intrin/transmute.rs", 15, []⟩]⟩,
  ⟨.be_u32s, ⟨.u, 8, 4⟩, none, [⟨"intrin/transmute.rs", 15, []⟩]⟩,
  ⟨.be_f32s_unchecked, ⟨.u, 8, 4⟩, none, [⟨"intrin/transmute.rs", 15, []⟩]⟩,
  ⟨.be_i64s, ⟨.u, 8, 4⟩, none, [⟨"intrin/transmute.rs", 15, []⟩]⟩,
  ⟨.be_u64s, ⟨.u, 8, 4⟩, none, [⟨"intrin/transmute.rs", 15, []⟩]⟩,
  ⟨.be_f64s_unchecked, ⟨.u, 8, 4⟩, none, [⟨"intrin/transmute.rs", 15, []⟩]⟩,
  ⟨.be_i8s, ⟨.i, 8, 4⟩, none, [⟨"intrin/transmute.rs", 15, []⟩]⟩,
  ⟨.be_u8s, ⟨.i, 8, 4⟩, none, [⟨"intrin/transmute.rs", 15, []⟩]⟩,
  ⟨.be_i16s, ⟨.i, 8, 4⟩, none, [⟨"intrin/transmute.rs", 15, []⟩]⟩,
  ⟨.be_u16s, ⟨.i, 8, 4⟩, none, [⟨"intrin/transmute.rs", 15, []⟩]⟩,
  ⟨.be_i32s, ⟨.i, 8, 4⟩, none, [⟨"intrin/transmute.rs", 15, []⟩]⟩,
  ⟨.be_u32s, ⟨.i, 8, 4⟩, none, [⟨"intrin/transmute.rs", 15, []⟩]⟩,
  ⟨.be_f32s_unchecked, ⟨.i, 8, 4⟩, none, [⟨"intrin/transmute.rs", 15, []⟩]⟩,
  ⟨.be_i64s, ⟨.i, 8, 4⟩, none, [⟨"intrin/transmute.rs", 15, []⟩]⟩,
  ⟨.be_u64s, ⟨.i, 8, 4⟩, none, [⟨"intrin/transmute.rs", 15, []⟩]⟩,
  ⟨.be_f64s_unchecked, ⟨.i, 8, 4⟩, none, [⟨"intrin/transmute.rs", 15, []⟩]⟩,
  ⟨.be_i8s, ⟨.f, 8, 4⟩, none, [⟨"intrin/transmute.rs", 15, []⟩]⟩,
  ⟨.be_u8s, ⟨.f, 8, 4⟩, none, [⟨"intrin/transmute.rs", 15, []⟩]⟩,
  ⟨.be_i16s, ⟨.f, 8, 4⟩, none, [⟨"intrin/transmute.rs", 15, []⟩]⟩,
  ⟨.be_u16s, ⟨.f, 8, 4⟩, none, [⟨"intrin/transmute.rs", 15, []⟩]⟩,
  ⟨.be_i32s, ⟨.f, 8, 4⟩, none, [⟨"intrin/transmute.rs", 15, []⟩]⟩,
  ⟨.be_u32s, ⟨.f, 8, 4⟩, none, [⟨"intrin/transmute.rs", 15, []⟩]⟩,
  ⟨.be_f32s_unchecked, ⟨.f, 8, 4⟩, none, [⟨"intrin/transmute.rs", 15, []⟩]⟩,
  ⟨.be_i64s, ⟨.f, 8, 4⟩, none, [⟨"intrin/transmute.rs", 15, []⟩]⟩,
  ⟨.be_u64s, ⟨.f, 8, 4⟩, none, [⟨"intrin/transmute.rs", 15, []⟩]⟩,
  ⟨.be_f64s_unchecked, ⟨.f, 8, 4⟩, none, [⟨"intrin/transmute.rs", 15, []⟩]⟩,
  ⟨.be_i8s, ⟨.u, 1, 64⟩, none, [⟨"intrin/transmute.rs", 20, []⟩]⟩,
  ⟨.be_u8s, ⟨.u, 1, 64⟩, none, [⟨"intrin/transmute.rs", 20, []⟩]⟩,
  ⟨.be_i16s, ⟨.u, 1, 64⟩, none, [⟨"intrin/transmute.rs", 20, []⟩]⟩,
  ⟨.be_u16s, ⟨.u, 1, 64⟩, none, [⟨"intrin/transmute.rs", 20, []⟩]⟩,
  ⟨.be_i32s, ⟨.u, 1, 64⟩, none, [⟨"intrin/transmute.rs", 20, []⟩]⟩,
  ⟨.be_u32s, ⟨.u, 1, 64⟩, none, [⟨"intrin/transmute.rs", 20, []⟩]⟩,
  ⟨.be_f32s_unchecked, ⟨.u, 1, 64⟩, none, [⟨"intrin/transmute.rs", 20, []⟩]⟩,
  ⟨.be_i64s, ⟨.u, 1, 64⟩, none, [⟨"intrin/transmute.rs", 20, []⟩]⟩,
  ⟨.be_u64s, ⟨.u, 1, 64⟩, none, [⟨"intrin/transmute.rs", 20, []⟩]⟩,
  ⟨.be_f64s_unchecked, ⟨.u, 1, 64⟩, none, [⟨"intrin/transmute.rs", 20, []⟩]⟩,
  ⟨.be_i8s, ⟨.i, 1, 64⟩, none, [⟨"intrin/transmute.rs", 20, []⟩]⟩,
  ⟨.be_u8s, ⟨.i, 1, 64⟩, none, [⟨"intrin/transmute.rs", 20, []⟩]⟩,
  ⟨.be_i16s, ⟨.i, 1, 64⟩, none, [⟨"intrin/transmute.rs", 20, []⟩]⟩,
  ⟨.be_u16s, ⟨.i, 1, 64⟩, none, [⟨"intrin/transmute.rs", 20, []⟩]⟩,
  ⟨.be_i32s, ⟨.i, 1, 64⟩, none, [⟨"intrin/transmute.rs", 20, []⟩]⟩,
  ⟨.be_u32s, ⟨.i, 1, 64⟩, none, [⟨"intrin/transmute.rs", 20, []⟩]⟩,
  ⟨.be_f32s_unchecked, ⟨.i, 1, 64⟩, none, [⟨"intrin/transmute.rs", 20, []⟩]⟩,
  ⟨.be_i64s, ⟨.i, 1, 64⟩, none, [⟨"intrin/transmute.rs", 20, []⟩]⟩,
  ⟨.be_u64s, ⟨.i, 1, 64⟩, none, [⟨"intrin/transmute.rs", 20, []⟩]⟩,
  ⟨.be_f64s_unchecked, ⟨.i, 1, 64⟩, none, [⟨"intrin/transmute.rs", 20, []⟩]⟩,
  ⟨.be_i8s, ⟨.u, 2, 32⟩, none, [⟨"intrin/transmute.rs", 20, []⟩]⟩,
  ⟨.be_u8s, ⟨.u, 2, 32⟩, none, [⟨"intrin/transmute.rs", 20, []⟩]⟩,
  ⟨.be_i16s, ⟨.u, 2, 32⟩, none, [⟨"intrin/transmute.rs", 20, []⟩]⟩,
  ⟨.be_u16s, ⟨.u, 2, 32⟩, none, [⟨"intrin/transmute.rs", 20, []⟩]⟩,
  ⟨.be_i32s, ⟨.u, 2, 32⟩, none, [⟨"intrin/transmute.rs", 20, []⟩]⟩,
  ⟨.be_u32s, ⟨.u, 2, 32⟩, none, [⟨"intrin/transmute.rs", 20, []⟩]⟩,
  ⟨.be_f32s_unchecked, ⟨.u, 2, 32⟩, none, [⟨"intrin/transmute.rs", 20, []⟩]⟩,
  ⟨.be_i64s, ⟨.u, 2, 32⟩, none, [⟨"intrin/transmute.rs", 20, []⟩]⟩,
  ⟨.be_u64s, ⟨.u, 2, 32⟩, none, [⟨"intrin/transmute.rs", 20, []⟩]⟩,
  ⟨.be_f64s_unchecked, ⟨.u, 2, 32⟩, none, [⟨"intrin/transmute.rs", 20, []⟩]⟩,
  ⟨.be_i8s, ⟨.i, 2, 32⟩, none, [⟨"intrin/transmute.rs", 20, []⟩]⟩,
  ⟨.be_u8s, ⟨.i, 2, 32⟩, none, [⟨"intrin/transmute.rs", 20, []⟩]⟩,
  ⟨.be_i16s, ⟨.i, 2, 32⟩, none, [⟨"intrin/transmute.rs", 20, []⟩]⟩,
  ⟨.be_u16s, ⟨.i, 2, 32⟩, none, [⟨"intrin/transmute.rs", 20, []⟩]⟩,
  ⟨.be_i32s, ⟨.i, 2, 32⟩, none, [⟨"intrin/transmute.rs", 20, []⟩]⟩,
  ⟨.be_u32s, ⟨.i, 2, 32⟩, none, [⟨"intrin/transmute.rs", 20, []⟩]⟩,
  ⟨.be_f32s_unchecked, ⟨.i, 2, 32⟩, none, [⟨"intrin/transmute.rs", 20, []⟩]⟩,
  ⟨.be_i64s, ⟨.i, 2, 32⟩, none, [⟨"intrin/transmute.rs", 20, []⟩]⟩,
  ⟨.be_u64s, ⟨.i, 2, 32⟩, none, [⟨"intrin/transmute.rs", 20, []⟩]⟩,
  ⟨.be_f64s_unchecked, ⟨.i, 2, 32⟩, none, [⟨"intrin/transmute.rs", 20, []⟩]⟩,
  ⟨.be_i8s, ⟨.u, 4, 16⟩, none, [⟨"intrin/transmute.rs", 20, []⟩]⟩,
  ⟨.be_u8s, ⟨.u, 4, 16⟩, none, [⟨"intrin/transmute.rs", 20, []⟩]⟩,
  ⟨.be_i16s, ⟨.u, 4, 16⟩, none, [⟨"intrin/transmute.rs", 20, []⟩]⟩,
  ⟨.be_u16s, ⟨.u, 4, 16⟩, none, [⟨"intrin/transmute.rs", 20, []⟩]⟩,
  ⟨.be_i32s, ⟨.u, 4, 16⟩, none, [⟨"intrin/transmute.rs", 20, []⟩]⟩,
  ⟨.be_u32s, ⟨.u, 4, 16⟩, none, [⟨"intrin/transmute.rs", 20, []⟩]⟩,
  ⟨.be_f32s_unchecked, ⟨.u, 4, 16⟩, none, [⟨"intrin/transmute.rs", 20, []⟩]⟩,
  ⟨.be_i64s, ⟨.u, 4, 16⟩, none, [⟨"intrin/transmute.rs", 20, []⟩]⟩,
  ⟨.be_u64s, ⟨.u, 4, 16⟩, none, [⟨"intrin/transmute.rs", 20, []⟩]⟩,
  ⟨.be_f64s_unchecked, ⟨.u, 4, 16⟩, none, [⟨"intrin/transmute.rs", 20, []⟩]⟩,
  ⟨.be_i8s, ⟨.i, 4, 16⟩, none, [⟨"intrin/transmute.rs", 20, []⟩]⟩,
  ⟨.be_u8s, ⟨.i, 4, 16⟩, none, [⟨"intrin/transmute.rs", 20, []⟩]⟩,
  ⟨.be_i16s, ⟨.i, 4, 16⟩, none, [⟨"intrin/transmute.rs", 20, []⟩]⟩,
  ⟨.be_u16s, ⟨.i, 4, 16⟩, none, [⟨"intrin/transmute.rs", 20, []⟩]⟩,
  ⟨.be_i32s, ⟨.i, 4, 16⟩, none, [⟨"intrin/transmute.rs", 20, []⟩]⟩,
  ⟨.be_u32s, ⟨.i, 4, 16⟩, none, [⟨"intrin/transmute.rs", 20, []⟩]⟩,
  ⟨.be_f32s_unchecked, ⟨.i, 4, 16⟩, none, [⟨"intrin/transmute.rs", 20, []⟩]⟩,
  ⟨.be_i64s, ⟨.i, 4, 16⟩, none, [⟨"intrin/transmute.rs", 20, []⟩]⟩,
  ⟨.be_u64s, ⟨.i, 4, 16⟩, none, [⟨"intrin/transmute.rs", 20, []⟩]⟩,
  ⟨.be_f64s_unchecked, ⟨.i, 4, 16⟩, none, [⟨"intrin/transmute.rs", 20, []⟩]⟩,
  ⟨.be_i8s, ⟨.f, 4, 16⟩, none, [⟨"intrin/transmute.rs", 20, []⟩]⟩,
  ⟨.be_u8s, ⟨.f, 4, 16⟩, none, [⟨"intrin/transmute.rs", 20, []⟩]⟩,
  ⟨.be_i16s, ⟨.f, 4, 16⟩, none, [⟨"intrin/transmute.rs", 20, []⟩]⟩,
  ⟨.be_u16s, ⟨.f, 4, 16⟩, none, [⟨"intrin/transmute.rs", 20, []⟩]⟩,
  ⟨.be_i32s, ⟨.f, 4, 16⟩, none, [⟨"intrin/transmute.rs", 20, []⟩]⟩,
  ⟨.be_u32s, ⟨.f, 4, 16⟩, none, [⟨"intrin/transmute.rs", 20, []⟩]⟩,
  ⟨.be_f32s_unchecked, ⟨.f, 4, 16⟩, none, [⟨"intrin/transmute.rs", 20, []⟩]⟩,
  ⟨.be_i64s, ⟨.f, 4, 16⟩, none, [⟨"intrin/transmute.rs", 20, []⟩]⟩,
  ⟨.be_u64s, ⟨.f, 4, 16⟩, none, [⟨"intrin/transmute.rs", 20, []⟩]⟩,
  ⟨.be_f64s_unchecked, ⟨.f, 4, 16⟩, none, [⟨"intrin/transmute.rs", 20, []⟩]⟩,
  ⟨.be_i8s, ⟨.u, 8, 8⟩, none, [⟨"intrin/transmute.rs", 20, []⟩]⟩,
  ⟨.be_u8s, ⟨.u, 8, 8⟩, none, [⟨"intrin/transmute.rs", 20, []⟩]⟩,
  ⟨.be_i16s, ⟨.u, 8, 8⟩, none, [⟨"intrin/transmute.rs", 20, []⟩]⟩,
  ⟨.be_u16s, ⟨.u, 8, 8⟩, none, [⟨"intrin/transmute.rs", 20, []⟩]⟩,
  ⟨.be_i32s, ⟨.u, 8, 8⟩, none, [⟨"intrin/transmute.rs", 20, []⟩]⟩,
  ⟨.be_u32s, ⟨.u, 8, 8⟩, none, [⟨"intrin/transmute.rs", 20, []⟩]⟩,
  ⟨.be_f32s_unchecked, ⟨.u, 8, 8⟩, none, [⟨"intrin/transmute.rs", 20, []⟩]⟩,
  ⟨.be_i64s, ⟨.u, 8, 8⟩, none, [⟨"intrin/transmute.rs", 20, []⟩]⟩,
  ⟨.be_u64s, ⟨.u, 8, 8⟩, none, [⟨"intrin/transmute.rs", 20, []⟩]⟩,
  ⟨.be_f64s_unchecked, ⟨.u, 8, 8⟩, none, [⟨"intrin/transmute.rs", 20, []⟩]⟩,
  ⟨.be_i8s, ⟨.i, 8, 8⟩, none, [⟨"intrin/transmute.rs", 20, []⟩]⟩,
  ⟨.be_u8s, ⟨.i, 8, 8⟩, none, [⟨"intrin/transmute.rs", 20, []⟩]⟩,
  ⟨.be_i16s, ⟨.i, 8, 8⟩, none, [⟨"intrin/transmute.rs", 20, []⟩]⟩,
  ⟨.be_u16s, ⟨.i, 8, 8⟩, none, [⟨"intrin/transmute.rs", 20, []⟩]⟩,
  ⟨.be_i32s, ⟨.i, 8, 8⟩, none, [⟨"intrin/transmute.rs", 20, []⟩]⟩,
  ⟨.be_u32s, ⟨.i, 8, 8⟩, none, [⟨"intrin/transmute.rs", 20, []⟩]⟩,
  ⟨.be_f32s_unchecked, ⟨.i, 8, 8⟩, none, [⟨"intrin/transmute.rs", 20, []⟩]⟩,
  ⟨.be_i64s, ⟨.i, 8, 8⟩, none, [⟨"intrin/transmute.rs", 20, []⟩]⟩,
  ⟨.be_u64s, ⟨.i, 8, 8⟩, none, [⟨"intrin/transmute.rs", 20, []⟩]⟩,
  ⟨.be_f64s_unchecked, ⟨.i, 8, 8⟩, none, [⟨"intrin/transmute.rs", 20, []⟩]⟩,
  ⟨.be_i8s, ⟨.f, 8, 8⟩, none, [⟨"intrin/transmute.rs", 20, []⟩]⟩,
  ⟨.be_u8s, ⟨.f, 8, 8⟩, none, [⟨"intrin/transmute.rs", 20, []⟩]⟩,
  ⟨.be_i16s, ⟨.f, 8, 8⟩, none, [⟨"intrin/transmute.rs", 20, []⟩]⟩,
  ⟨.be_u16s, ⟨.f, 8, 8⟩, none, [⟨"intrin/transmute.rs", 20, []⟩]⟩,
  ⟨.be_i32s, ⟨.f, 8, 8⟩, none, [⟨"intrin/transmute.rs", 20, []⟩]⟩,
  ⟨.be_u32s, ⟨.f, 8, 8⟩, none, [⟨"intrin/transmute.rs", 20, []⟩]⟩,
  ⟨.be_f32s_unchecked, ⟨.f, 8, 8⟩, none, [⟨"intrin/transmute.rs", 20, []⟩]⟩,
  ⟨.be_i64s, ⟨.f, 8, 8⟩, none, [⟨"intrin/transmute.rs", 20, []⟩]⟩,
  ⟨.be_u64s, ⟨.f, 8, 8⟩, none, [⟨"intrin/transmute.rs", 20, []⟩]⟩,
  ⟨.be_f64s_unchecked, ⟨.f, 8, 8⟩, none, [⟨"intrin/transmute.rs", 20, []⟩]⟩,
  ⟨.be_i8s, ⟨.u, 1, 16⟩, none, [⟨"intrin/transmute.rs", 25, []⟩]⟩,
  ⟨.be_u8s, ⟨.u, 1, 16⟩, none, [⟨"intrin/transmute.rs", 25, []⟩]⟩,
  ⟨.be_i16s, ⟨.u, 1, 16⟩, none, [⟨"intrin/transmute.rs", 25, []⟩]⟩,
  ⟨.be_u16s, ⟨.u, 1, 16⟩, none, [⟨"intrin/transmute.rs", 25, []⟩]⟩,
  ⟨.be_i32s, ⟨.u, 1, 16⟩, none, [⟨"intrin/transmute.rs", 25, []⟩]⟩,
  ⟨.be_u32s, ⟨.u, 1, 16⟩, none, [⟨"intrin/transmute.rs", 25, []⟩]⟩,
  ⟨.be_f32s_unchecked, ⟨.u, 1, 16⟩, none, [⟨"intrin/transmute.rs", 25, []⟩]⟩,
  ⟨.be_i64s, ⟨.u, 1, 16⟩, none, [⟨"intrin/transmute.rs", 25, []⟩]⟩,
  ⟨.be_u64s, ⟨.u, 1, 16⟩, none, [⟨"intrin/transmute.rs", 25, []⟩]⟩,
  ⟨.be_f64s_unchecked, ⟨.u, 1, 16⟩, none, [⟨"intrin/transmute.rs", 25, []⟩]⟩,
  ⟨.be_i8s, ⟨.i, 1, 16⟩, none, [⟨"intrin/transmute.rs", 25, []⟩]⟩,
  ⟨.be_u8s, ⟨.i, 1, 16⟩, none, [⟨"intrin/transmute.rs", 25, []⟩]⟩,
  ⟨.be_i16s, ⟨.i, 1, 16⟩, none, [⟨"intrin/transmute.rs", 25, []⟩]⟩,
  ⟨.be_u16s, ⟨.i, 1, 16⟩, none, [⟨"intrin/transmute.rs", 25, []⟩]⟩,
  ⟨.be_i32s, ⟨.i, 1, 16⟩, none, [⟨"intrin/transmute.rs", 25, []⟩]⟩,
  ⟨.be_u32s, ⟨.i, 1, 16⟩, none, [⟨"intrin/transmute.rs", 25, []⟩]⟩,
  ⟨.be_f32s_unchecked, ⟨.i, 1, 16⟩, none, [⟨"intrin/transmute.rs", 25, []⟩]⟩,
  ⟨.be_i64s, ⟨.i, 1, 16⟩, none, [⟨"intrin/transmute.rs", 25, []⟩]⟩,
  ⟨.be_u64s, ⟨.i, 1, 16⟩, none, [⟨"intrin/transmute.rs", 25, []⟩]⟩,
  ⟨.be_f64s_unchecked, ⟨.i, 1, 16⟩, none, [⟨"intrin/transmute.rs", 25, []⟩]⟩,
  ⟨.be_i8s, ⟨.u, 2, 8⟩, none, [⟨"intrin/transmute.rs", 25, []⟩]⟩,
  ⟨.be_u8s, ⟨.u, 2, 8⟩, none, [⟨"intrin/transmute.rs", 25, []⟩]⟩,
  ⟨.be_i16s, ⟨.u, 2, 8⟩, none, [⟨"intrin/transmute.rs", 25, []⟩]⟩,
  ⟨.be_u16s, ⟨.u, 2, 8⟩, none, [⟨"intrin/transmute.rs", 25, []⟩]⟩,
  ⟨.be_i32s, ⟨.u, 2, 8⟩, none, [⟨"intrin/transmute.rs", 25, []⟩]⟩,
  ⟨.be_u32s, ⟨.u, 2, 8⟩, none, [⟨"intrin/transmute.rs", 25, []⟩]⟩,
  ⟨.be_f32s_unchecked, ⟨.u, 2, 8⟩, none, [⟨"intrin/transmute.rs", 25, []⟩]⟩,
  ⟨.be_i64s, ⟨.u, 2, 8⟩, none, [⟨"intrin/transmute.rs", 25, []⟩]⟩,
  ⟨.be_u64s, ⟨.u, 2, 8⟩, none, [⟨"intrin/transmute.rs", 25, []⟩]⟩,
  ⟨.be_f64s_unchecked, ⟨.u, 2, 8⟩, none, [⟨"intrin/transmute.rs", 25, []⟩]⟩,
  ⟨.be_i8s, ⟨.i, 2, 8⟩, none, [⟨"intrin/transmute.rs", 25, []⟩]⟩,
  ⟨.be_u8s, ⟨.i, 2, 8⟩, none, [⟨"intrin/transmute.rs", 25, []⟩]⟩,
  ⟨.be_i16s, ⟨.i, 2, 8⟩, none, [⟨"intrin/transmute.rs", 25, []⟩]⟩,
  ⟨.be_u16s, ⟨.i, 2, 8⟩, none, [⟨"intrin/transmute.rs", 25, []⟩]⟩,
  ⟨.be_i32s, ⟨.i, 2, 8⟩, none, [⟨"intrin/transmute.rs", 25, []⟩]⟩,
  ⟨.be_u32s, ⟨.i, 2, 8⟩, none, [⟨"intrin/transmute.rs", 25, []⟩]⟩,
  ⟨.be_f32s_unchecked, ⟨.i, 2, 8⟩, none, [⟨"intrin/transmute.rs", 25, []⟩]⟩,
  ⟨.be_i64s, ⟨.i, 2, 8⟩, none, [⟨"intrin/transmute.rs", 25, []⟩]⟩,
  ⟨.be_u64s, ⟨.i, 2, 8⟩, none, [⟨"intrin/transmute.rs", 25, []⟩]⟩,
  ⟨.be_f64s_unchecked, ⟨.i, 2, 8⟩, none, [⟨"intrin/transmute.rs", 25, []⟩]⟩,
  ⟨.be_i8s, ⟨.u, 4, 4⟩, none, [⟨"intrin/transmute.rs", 25, []⟩]⟩,
  ⟨.be_u8s, ⟨.u, 4, 4⟩, none, [⟨"intrin/transmute.rs", 25, []⟩]⟩,
  ⟨.be_i16s, ⟨.u, 4, 4⟩, none, [⟨"intrin/transmute.rs", 25, []⟩]⟩,
  ⟨.be_u16s, ⟨.u, 4, 4⟩, none, [⟨"intrin/transmute.rs", 25, []⟩]⟩,
  ⟨.be_i32s, ⟨.u, 4, 4⟩, none, [⟨"intrin/transmute.rs", 25, []⟩]⟩,
  ⟨.be_u32s, ⟨.u, 4, 4⟩, none, [⟨"intrin/transmute.rs", 25, []⟩]⟩,
  ⟨.be_f32s_unchecked, ⟨.u, 4, 4⟩, none, [⟨"intrin/transmute.rs", 25, []⟩]⟩,
  ⟨.be_i64s, ⟨.u, 4, 4⟩, none, [⟨"intrin/transmute.rs", 25, []⟩]⟩,
  ⟨.be_u64s, ⟨.u, 4, 4⟩, none, [⟨"intrin/transmute.rs", 25, []⟩]⟩,
  ⟨.be_f64s_unchecked, ⟨.u, 4, 4⟩, none, [⟨"intrin/transmute.rs", 25, []⟩]⟩,
  ⟨.be_i8s, ⟨.i, 4, 4⟩, none, [⟨"intrin/transmute.rs", 25, []⟩]⟩,
  ⟨.be_u8s, ⟨.i, 4, 4⟩, none, [⟨"intrin/transmute.rs", 25, []⟩]⟩,
  ⟨.be_i16s, ⟨.i, 4, 4⟩, none, [⟨"intrin/transmute.rs", 25, []⟩]⟩,
  ⟨.be_u16s, ⟨.i, 4, 4⟩, none, [⟨"intrin/transmute.rs", 25, []⟩]⟩,
  ⟨.be_i32s, ⟨.i, 4, 4⟩, none, [⟨"intrin/transmute.rs", 25, []⟩]⟩,
  ⟨.be_u32s, ⟨.i, 4, 4⟩, none, [⟨"intrin/transmute.rs", 25, []⟩]⟩,
  ⟨.be_f32s_unchecked, ⟨.i, 4, 4⟩, none, [⟨"intrin/transmute.rs", 25, []⟩]⟩,
  ⟨.be_i64s, ⟨.i, 4, 4⟩, none, [⟨"intrin/transmute.rs", 25, []⟩]⟩,
  ⟨.be_u64s, ⟨.i, 4, 4⟩, none, [⟨"intrin/transmute.rs", 25, []⟩]⟩,
  ⟨.be_f64s_unchecked, ⟨.i, 4, 4⟩, none, [⟨"intrin/transmute.rs", 25, []⟩]⟩,
  ⟨.be_i8s, ⟨.f, 4, 4⟩, none, [⟨"intrin/transmute.rs", 25, []⟩]⟩,
  ⟨.be_u8s, ⟨.f, 4, 4⟩, none, [⟨"intrin/transmute.rs", 25, []⟩]⟩,
  ⟨.be_i16s, ⟨.f, 4, 4⟩, none, [⟨"intrin/transmute.rs", 25, []⟩]⟩,
  ⟨.be_u16s, ⟨.f, 4, 4⟩, none, [⟨"intrin/transmute.rs", 25, []⟩]⟩,
  ⟨.be_i32s, ⟨.f, 4, 4⟩, none, [⟨"intrin/transmute.rs", 25, []⟩]⟩,
  ⟨.be_u32s, ⟨.f, 4, 4⟩, none, [⟨"intrin/transmute.rs", 25, []⟩]⟩,
  ⟨.be_f32s_unchecked, ⟨.f, 4, 4⟩, none, [⟨"intrin/transmute.rs", 25, []⟩]⟩,
  ⟨.be_i64s, ⟨.f, 4, 4⟩, none, [⟨"intrin/transmute.rs", 25, []⟩]⟩,
  ⟨.be_u64s, ⟨.f, 4, 4⟩, none, [⟨"intrin/transmute.rs", 25, []⟩]⟩,
  ⟨.be_f64s_unchecked, ⟨.f, 4, 4⟩, none, [⟨"intrin/transmute.rs", 25, []⟩]⟩,
  ⟨.be_i8s, ⟨.u, 8, 2⟩, none, [⟨"intrin/transmute.rs", 25, []⟩]⟩,
  ⟨.be_u8s, ⟨.u, 8, 2⟩, none, [⟨"intrin/transmute.rs", 25, []⟩]⟩,
  ⟨.be_i16s, ⟨.u, 8, 2⟩, none, [⟨"intrin/transmute.rs", 25, []⟩]⟩,
  ⟨.be_u16s, ⟨.u, 8, 2⟩, none, [⟨"intrin/transmute.rs", 25, []⟩]⟩,
  ⟨.be_i32s, ⟨.u, 8, 2⟩, none, [⟨"intrin/transmute.rs", 25, []⟩]⟩,
  ⟨.be_u32s, ⟨.u, 8, 2⟩, none, [⟨"intrin/transmute.rs", 25, []⟩]⟩,
  ⟨.be_f32s_unchecked, ⟨.u, 8, 2⟩, none, [⟨"intrin/transmute.rs", 25, []⟩]⟩,
  ⟨.be_i64s, ⟨.u, 8, 2⟩, none, [⟨"intrin/transmute.rs", 25, []⟩]⟩,
  ⟨.be_u64s, ⟨.u, 8, 2⟩, none, [⟨"intrin/transmute.rs", 25, []⟩]⟩,
  ⟨.be_f64s_unchecked, ⟨.u, 8, 2⟩, none, [⟨"intrin/transmute.rs", 25, []⟩]⟩,
  ⟨.be_i8s, ⟨.i, 8, 2⟩, none, [⟨"intrin/transmute.rs", 25, []⟩]⟩,
  ⟨.be_u8s, ⟨.i, 8, 2⟩, none, [⟨"intrin/transmute.rs", 25, []⟩]⟩,
  ⟨.be_i16s, ⟨.i, 8, 2⟩, none, [⟨"intrin/transmute.rs", 25, []⟩]⟩,
  ⟨.be_u16s, ⟨.i, 8, 2⟩, none, [⟨"intrin/transmute.rs", 25, []⟩]⟩,
  ⟨.be_i32s, ⟨.i, 8, 2⟩, none, [⟨"intrin/transmute.rs", 25, []⟩]⟩,
  ⟨.be_u32s, ⟨.i, 8, 2⟩, none, [⟨"intrin/transmute.rs", 25, []⟩]⟩,
  ⟨.be_f32s_unchecked, ⟨.i, 8, 2⟩, none, [⟨"intrin/transmute.rs", 25, []⟩]⟩,
  ⟨.be_i64s, ⟨.i, 8, 2⟩, none, [⟨"intrin/transmute.rs", 25, []⟩]⟩,
  ⟨.be_u64s, ⟨.i, 8, 2⟩, none, [⟨"intrin/transmute.rs", 25, []⟩]⟩,
  ⟨.be_f64s_unchecked, ⟨.i, 8, 2⟩, none, [⟨"intrin/transmute.rs", 25, []⟩]⟩,
  ⟨.be_i8s, ⟨.f, 8, 2⟩, none, [⟨"intrin/transmute.rs", 25, []⟩]⟩,
  ⟨.be_u8s, ⟨.f, 8, 2⟩, none, [⟨"intrin/transmute.rs", 25, []⟩]⟩,
  ⟨.be_i16s, ⟨.f, 8, 2⟩, none, [⟨"intrin/transmute.rs", 25, []⟩]⟩,
  ⟨.be_u16s, ⟨.f, 8, 2⟩, none, [⟨"intrin/transmute.rs", 25, []⟩]⟩,
  ⟨.be_i32s, ⟨.f, 8, 2⟩, none, [⟨"intrin/transmute.rs", 25, []⟩]⟩,
  ⟨.be_u32s, ⟨.f, 8, 2⟩, none, [⟨"intrin/transmute.rs", 25, []⟩]⟩,
  ⟨.be_f32s_unchecked, ⟨.f, 8, 2⟩, none, [⟨"intrin/transmute.rs", 25, []⟩]⟩,
  ⟨.be_i64s, ⟨.f, 8, 2⟩, none, [⟨"intrin/transmute.rs", 25, []⟩]⟩,
  ⟨.be_u64s, ⟨.f, 8, 2⟩, none, [⟨"intrin/transmute.rs", 25, []⟩]⟩,
  ⟨.be_f64s_unchecked, ⟨.f, 8, 2⟩, none, [⟨"intrin/transmute.rs", 25, []⟩]⟩,
  ⟨.upcast, ⟨.u, 1, 16⟩, some ⟨.u, 2, 8⟩, [⟨"intrin/upcast.rs", 19, [("sse4.1", true)]⟩, ⟨"intrin/upcast.rs", 30, [("sse4.1", false)]⟩]⟩,
  ⟨.upcast, ⟨.i, 1, 16⟩, some ⟨.i, 2, 8⟩, [⟨"intrin/upcast.rs", 54, [("sse4.1", true)]⟩, ⟨"intrin/upcast.rs", 65, [("sse4.1", false)]⟩]⟩,
  ⟨.upcast, ⟨.u, 2, 8⟩, some ⟨.u, 4, 4⟩, [⟨"intrin/upcast.rs", 89, [("sse4.1", true)]⟩, ⟨"intrin/upcast.rs", 99, [("sse4.1", false)]⟩]⟩,
  ⟨.upcast, ⟨.i, 2, 8⟩, some ⟨.i, 4, 4⟩, [⟨"intrin/upcast.rs", 115, [("sse4.1", true)]⟩, ⟨"intrin/upcast.rs", 125, [("sse4.1", false)]⟩]⟩,
  ⟨.upcast, ⟨.u, 1, 32⟩, some ⟨.u, 2, 16⟩, [⟨"intrin/upcast.rs", 141, [("avx2", true)]⟩, ⟨"intrin/upcast.rs", 151, [("avx2", false)]⟩]⟩,
  ⟨.upcast, ⟨.i, 1, 32⟩, some ⟨.i, 2, 16⟩, [⟨"intrin/upcast.rs", 191, [("avx2", true)]⟩, ⟨"intrin/upcast.rs", 208, [("avx2", false)]⟩]⟩,
  ⟨.upcast, ⟨.u, 2, 16⟩, some ⟨.u, 4, 8⟩, [⟨"intrin/upcast.rs", 248, [("avx2", true)]⟩, ⟨"intrin/upcast.rs", 258, [("avx2", false)]⟩]⟩,
  ⟨.upcast, ⟨.i, 2, 16⟩, some ⟨.i, 4, 8⟩, [⟨"intrin/upcast.rs", 283, [("avx2", true)]⟩, ⟨"intrin/upcast.rs", 300, [("avx2", false)]⟩]⟩,
  ⟨.upcast, ⟨.f, 4, 4⟩, some ⟨.f, 8, 2⟩, [⟨"intrin/upcast.rs", 324, [("sse2", true)]⟩, ⟨"intrin/upcast.rs", 332, [("sse2", false)]⟩]⟩,
  ⟨.upcast, ⟨.i, 4, 4⟩, some ⟨.f, 8, 2⟩, [⟨"intrin/upcast.rs", 344, [("sse2", true)]⟩, ⟨"intrin/upcast.rs", 351, [("sse2", false)]⟩]⟩,
  ⟨.upcast, ⟨.i, 4, 4⟩, some ⟨.i, 8, 2⟩, [⟨"intrin/upcast.rs", 363, [("sse4.1", true)]⟩, ⟨"intrin/upcast.rs", 373, [("sse4.1", false)]⟩]⟩,
  ⟨.upcast, ⟨.u, 4, 4⟩, some ⟨.u, 8, 2⟩, [⟨"intrin/upcast.rs", 385, [("sse4.1", true)]⟩, ⟨"intrin/upcast.rs", 394, [("sse4.1", false)]⟩]⟩,
  ⟨.upcast, ⟨.f, 4, 8⟩, some ⟨.f, 8, 4⟩, [⟨"intrin/upcast.rs", 406, [("avx2", true)]⟩, ⟨"intrin/upcast.rs", 424, [("avx2", false)]⟩]⟩,
  ⟨.upcast, ⟨.i, 4, 8⟩, some ⟨.f, 8, 4⟩, [⟨"intrin/upcast.rs", 440, [("avx2", true)]⟩, ⟨"intrin/upcast.rs", 457, [("avx2", false)]⟩]⟩,
  ⟨.upcast, ⟨.i, 4, 8⟩, some ⟨.i, 8, 4⟩, [⟨"intrin/upcast.rs", 473, [("avx2", true)]⟩, ⟨"intrin/upcast.rs", 490, [("avx2", false)]⟩]⟩,
  ⟨.upcast, ⟨.u, 4, 8⟩, some ⟨.u, 8, 4⟩, [⟨"intrin/upcast.rs", 506, [("avx2", true)]⟩, ⟨"intrin/upcast.rs", 515, [("avx2", false)]⟩]⟩,
  ⟨.upcast, ⟨.f, 4, 16⟩, some ⟨.f, 8, 8⟩, [⟨"intrin/upcast.rs", 530, []⟩]⟩,
  ⟨.upcast, ⟨.i, 4, 16⟩, some ⟨.f, 8, 8⟩, [⟨"intrin/upcast.rs", 553, []⟩]⟩,
  ⟨.upcast, ⟨.i, 4, 16⟩, some ⟨.i, 8, 8⟩, [⟨"intrin/upcast.rs", 576, []⟩]⟩,
  ⟨.upcast, ⟨.u, 4, 16⟩, some ⟨.u, 8, 8⟩, [⟨"intrin/upcast.rs", 599, []⟩]⟩,
  ⟨.halfs, ⟨.u, 1, 64⟩, none, [⟨"vec_patterns.rs", 39, []⟩]⟩,
  ⟨.interleave, ⟨.u, 1, 64⟩, none, [⟨"vec_patterns.rs", 44, []⟩]⟩,
  ⟨.partition_mask, ⟨.u, 1, 64⟩, none, [⟨"vec_patterns.rs", 49, []⟩]⟩,
  ⟨.partition, ⟨.u, 1, 64⟩, none, [⟨"vec_patterns.rs", 57, [("avx512-notyet", true)]⟩, ⟨"vec_patterns.rs", 64, [("avx512-notyet", false)]⟩]⟩,
  ⟨.ones, ⟨.u, 1, 64⟩, none, [⟨"vec_patterns.rs", 139, []⟩]⟩,
  ⟨.zeroes, ⟨.u, 1, 64⟩, none, [⟨"vec_patterns.rs", 145, []⟩]⟩,
  ⟨.halfs, ⟨.u, 1, 32⟩, none, [⟨"vec_patterns.rs", 152, []⟩]⟩,
  ⟨.interleave, ⟨.u, 1, 32⟩, none, [⟨"vec_patterns.rs", 157, []⟩]⟩,
  ⟨.partition_mask, ⟨.u, 1, 32⟩, none, [⟨"vec_patterns.rs", 162, []⟩]⟩,
  ⟨.partition, ⟨.u, 1, 32⟩, none, [⟨"vec_patterns.rs", 170, [("avx2", true)]⟩, ⟨"vec_patterns.rs", 177, [("avx2", false)]⟩]⟩,
  ⟨.ones, ⟨.u, 1, 32⟩, none, [⟨"vec_patterns.rs", 220, []⟩]⟩,
  ⟨.zeroes, ⟨.u, 1, 32⟩, none, [⟨"vec_patterns.rs", 226, []⟩]⟩,
  ⟨.halfs, ⟨.u, 1, 16⟩, none, [⟨"vec_patterns.rs", 233, []⟩]⟩,
  ⟨.interleave, ⟨.u, 1, 16⟩, none, [⟨"vec_patterns.rs", 238, []⟩]⟩,
  ⟨.partition_mask, ⟨.u, 1, 16⟩, none, [⟨"vec_patterns.rs", 243, []⟩]⟩,
  ⟨.partition, ⟨.u, 1, 16⟩, none, [⟨"vec_patterns.rs", 251, [("sse4.1", true)]⟩, ⟨"vec_patterns.rs", 258, [("sse4.1", false)]⟩]⟩,
  ⟨.ones, ⟨.u, 1, 16⟩, none, [⟨"vec_patterns.rs", 285, []⟩]⟩,
  ⟨.zeroes, ⟨.u, 1, 16⟩, none, [⟨"vec_patterns.rs", 291, []⟩]⟩,
  ⟨.halfs, ⟨.i, 1, 64⟩, none, [⟨"vec_patterns.rs", 298, []⟩]⟩,
  ⟨.interleave, ⟨.i, 1, 64⟩, none, [⟨"vec_patterns.rs", 303, []⟩]⟩,
  ⟨.partition_mask, ⟨.i, 1, 64⟩, none, [⟨"vec_patterns.rs", 308, []⟩]⟩,
  ⟨.partition, ⟨.i, 1, 64⟩, none, [⟨"vec_patterns.rs", 316, [("avx512-notyet", true)]⟩, ⟨"vec_patterns.rs", 323, [("avx512-notyet", false)]⟩]⟩,
  ⟨.ones, ⟨.i, 1, 64⟩, none, [⟨"vec_patterns.rs", 398, []⟩]⟩,
  ⟨.zeroes, ⟨.i, 1, 64⟩, none, [⟨"vec_patterns.rs", 404, []⟩]⟩,
  ⟨.halfs, ⟨.i, 1, 32⟩, none, [⟨"vec_patterns.rs", 411, []⟩]⟩,
  ⟨.interleave, ⟨.i, 1, 32⟩, none, [⟨"vec_patterns.rs", 416, []⟩]⟩,
  ⟨.partition_mask, ⟨.i, 1, 32⟩, none, [⟨"vec_patterns.rs", 421, []⟩]⟩,
  ⟨.partition, ⟨.i, 1, 32⟩, none, [⟨"vec_patterns.rs", 429, [("avx2", true)]⟩, ⟨"vec_patterns.rs", 436, [("avx2", false)]⟩]⟩,
  ⟨.ones, ⟨.i, 1, 32⟩, none, [⟨"vec_patterns.rs", 479, []⟩]⟩,
  ⟨.zeroes, ⟨.i, 1, 32⟩, none, [⟨"vec_patterns.rs", 485, []⟩]⟩,
  ⟨.halfs, ⟨.i, 1, 16⟩, none, [⟨"vec_patterns.rs", 492, []⟩]⟩,
  ⟨.interleave, ⟨.i, 1, 16⟩, none, [⟨"vec_patterns.rs", 497, []⟩]⟩,
  ⟨.partition_mask, ⟨.i, 1, 16⟩, none, [⟨"vec_patterns.rs", 502, []⟩]⟩,
  ⟨.partition, ⟨.i, 1, 16⟩, none, [⟨"vec_patterns.rs", 510, [("sse4.1", true)]⟩, ⟨"vec_patterns.rs", 517, [("sse4.1", false)]⟩]⟩,
  ⟨.ones, ⟨.i, 1, 16⟩, none, [⟨"vec_patterns.rs", 544, []⟩]⟩,
  ⟨.zeroes, ⟨.i, 1, 16⟩, none, [⟨"vec_patterns.rs", 550, []⟩]⟩,
  ⟨.halfs, ⟨.u, 2, 32⟩, none, [⟨"vec_patterns.rs", 557, []⟩]⟩,
  ⟨.interleave, ⟨.u, 2, 32⟩, none, [⟨"vec_patterns.rs", 562, []⟩]⟩,
  ⟨.partition_mask, ⟨.u, 2, 32⟩, none, [⟨"vec_patterns.rs", 567, []⟩]⟩,
  ⟨.partition, ⟨.u, 2, 32⟩, none, [⟨"vec_patterns.rs", 575, [("avx512-notyet", true)]⟩, ⟨"vec_patterns.rs", 582, [("avx512-notyet", false)]⟩]⟩,
  ⟨.ones, ⟨.u, 2, 32⟩, none, [⟨"vec_patterns.rs", 625, []⟩]⟩,
  ⟨.zeroes, ⟨.u, 2, 32⟩, none, [⟨"vec_patterns.rs", 631, []⟩]⟩,
  ⟨.halfs, ⟨.u, 2, 16⟩, none, [⟨"vec_patterns.rs", 638, []⟩]⟩,
  ⟨.interleave, ⟨.u, 2, 16⟩, none, [⟨"vec_patterns.rs", 643, []⟩]⟩,
  ⟨.partition_mask, ⟨.u, 2, 16⟩, none, [⟨"vec_patterns.rs", 648, []⟩]⟩,
  ⟨.partition, ⟨.u, 2, 16⟩, none, [⟨"vec_patterns.rs", 656, [("avx2", true)]⟩, ⟨"vec_patterns.rs", 663, [("avx2", false)]⟩]⟩,
  ⟨.ones, ⟨.u, 2, 16⟩, none, [⟨"vec_patterns.rs", 690, []⟩]⟩,
  ⟨.zeroes, ⟨.u, 2, 16⟩, none, [⟨"vec_patterns.rs", 696, []⟩]⟩,
  ⟨.halfs, ⟨.u, 2, 8⟩, none, [⟨"vec_patterns.rs", 703, []⟩]⟩,
  ⟨.interleave, ⟨.u, 2, 8⟩, none, [⟨"vec_patterns.rs", 708, []⟩]⟩,
  ⟨.partition_mask, ⟨.u, 2, 8⟩, none, [⟨"vec_patterns.rs", 713, []⟩]⟩,
  ⟨.partition, ⟨.u, 2, 8⟩, none, [⟨"vec_patterns.rs", 721, [("sse4.1", true)]⟩, ⟨"vec_patterns.rs", 728, [("sse4.1", false)]⟩]⟩,
  ⟨.ones, ⟨.u, 2, 8⟩, none, [⟨"vec_patterns.rs", 747, []⟩]⟩,
  ⟨.zeroes, ⟨.u, 2, 8⟩, none, [⟨"vec_patterns.rs", 753, []⟩]⟩,
  ⟨.halfs, ⟨.i, 2, 32⟩, none, [⟨"vec_patterns.rs", 760, []⟩]⟩,
  ⟨.interleave, ⟨.i, 2, 32⟩, none, [⟨"vec_patterns.rs", 765, []⟩]⟩,
  ⟨.partition_mask, ⟨.i, 2, 32⟩, none, [⟨"vec_patterns.rs", 770, []⟩]⟩,
  ⟨.partition, ⟨.i, 2, 32⟩, none, [⟨"vec_patterns.rs", 778, [("avx512-notyet", true)]⟩, ⟨"vec_patterns.rs", 785, [("avx512-notyet", false)]⟩]⟩,
  ⟨.ones, ⟨.i, 2, 32⟩, none, [⟨"vec_patterns.rs", 828, []⟩]⟩,
  ⟨.zeroes, ⟨.i, 2, 32⟩, none, [⟨"vec_patterns.rs", 834, []⟩]⟩,
  ⟨.halfs, ⟨.i, 2, 16⟩, none, [⟨"vec_patterns.rs", 841, []⟩]⟩,
  ⟨.interleave, ⟨.i, 2, 16⟩, none, [⟨"vec_patterns.rs", 846, []⟩]⟩,
  ⟨.partition_mask, ⟨.i, 2, 16⟩, none, [⟨"vec_patterns.rs", 851, []⟩]⟩,
  ⟨.partition, ⟨.i, 2, 16⟩, none, [⟨"vec_patterns.rs", 859, [("avx2", true)]⟩, ⟨"vec_patterns.rs", 866, [("avx2", false)]⟩]⟩,
  ⟨.ones, ⟨.i, 2, 16⟩, none, [⟨"vec_patterns.rs", 893, []⟩]⟩,
  ⟨.zeroes, ⟨.i, 2, 16⟩, none, [⟨"vec_patterns.rs", 899, []⟩]⟩,
  ⟨.halfs, ⟨.i, 2, 8⟩, none, [⟨"vec_patterns.rs", 906, []⟩]⟩,
  ⟨.interleave, ⟨.i, 2, 8⟩, none, [⟨"vec_patterns.rs", 911, []⟩]⟩,
  ⟨.partition_mask, ⟨.i, 2, 8⟩, none, [⟨"vec_patterns.rs", 916, []⟩]⟩,
  ⟨.partition, ⟨.i, 2, 8⟩, none, [⟨"vec_patterns.rs", 924, [("sse4.1", true)]⟩, ⟨"vec_patterns.rs", 931, [("sse4.1", false)]⟩]⟩,
  ⟨.ones, ⟨.i, 2, 8⟩, none, [⟨"vec_patterns.rs", 950, []⟩]⟩,
  ⟨.zeroes, ⟨.i, 2, 8⟩, none, [⟨"vec_patterns.rs", 956, []⟩]⟩,
  ⟨.halfs, ⟨.u, 4, 16⟩, none, [⟨"vec_patterns.rs", 963, []⟩]⟩,
  ⟨.interleave, ⟨.u, 4, 16⟩, none, [⟨"vec_patterns.rs", 968, []⟩]⟩,
  ⟨.partition_mask, ⟨.u, 4, 16⟩, none, [⟨"vec_patterns.rs", 973, []⟩]⟩,
  ⟨.partition, ⟨.u, 4, 16⟩, none, [⟨"vec_patterns.rs", 981, [("avx512-notyet", true)]⟩, ⟨"vec_patterns.rs", 988, [("avx512-notyet", false)]⟩]⟩,
  ⟨.ones, ⟨.u, 4, 16⟩, none, [⟨"vec_patterns.rs", 1015, []⟩]⟩,
  ⟨.zeroes, ⟨.u, 4, 16⟩, none, [⟨"vec_patterns.rs", 1021, []⟩]⟩,
  ⟨.halfs, ⟨.u, 4, 8⟩, none, [⟨"vec_patterns.rs", 1028, []⟩]⟩,
  ⟨.interleave, ⟨.u, 4, 8⟩, none, [⟨"vec_patterns.rs", 1033, []⟩]⟩,
  ⟨.partition_mask, ⟨.u, 4, 8⟩, none, [⟨"vec_patterns.rs", 1038, []⟩]⟩,
  ⟨.partition, ⟨.u, 4, 8⟩, none, [⟨"vec_patterns.rs", 1046, [("avx2", true)]⟩, ⟨"vec_patterns.rs", 1053, [("avx2", false)]⟩]⟩,
  ⟨.ones, ⟨.u, 4, 8⟩, none, [⟨"vec_patterns.rs", 1072, []⟩]⟩,
  ⟨.zeroes, ⟨.u, 4, 8⟩, none, [⟨"vec_patterns.rs", 1078, []⟩]⟩,
  ⟨.halfs, ⟨.u, 4, 4⟩, none, [⟨"vec_patterns.rs", 1085, []⟩]⟩,
  ⟨.interleave, ⟨.u, 4, 4⟩, none, [⟨"vec_patterns.rs", 1090, []⟩]⟩,
  ⟨.partition_mask, ⟨.u, 4, 4⟩, none, [⟨"vec_patterns.rs", 1095, []⟩]⟩,
  ⟨.partition, ⟨.u, 4, 4⟩, none, [⟨"vec_patterns.rs", 1103, [("sse4.1", true)]⟩, ⟨"vec_patterns.rs", 1110, [("sse4.1", false)]⟩]⟩,
  ⟨.ones, ⟨.u, 4, 4⟩, none, [⟨"vec_patterns.rs", 1125, []⟩]⟩,
  ⟨.zeroes, ⟨.u, 4, 4⟩, none, [⟨"vec_patterns.rs", 1131, []⟩]⟩,
  ⟨.halfs, ⟨.i, 4, 16⟩, none, [⟨"vec_patterns.rs", 1138, []⟩]⟩,
  ⟨.interleave, ⟨.i, 4, 16⟩, none, [⟨"vec_patterns.rs", 1143, []⟩]⟩,
  ⟨.partition_mask, ⟨.i, 4, 16⟩, none, [⟨"vec_patterns.rs", 1148, []⟩]⟩,
  ⟨.partition, ⟨.i, 4, 16⟩, none, [⟨"vec_patterns.rs", 1156, [("avx512-notyet", true)]⟩, ⟨"vec_patterns.rs", 1163, [("avx512-notyet", false)]⟩]⟩,
  ⟨.ones, ⟨.i, 4, 16⟩, none, [⟨"vec_patterns.rs", 1190, []⟩]⟩,
  ⟨.zeroes, ⟨.i, 4, 16⟩, none, [⟨"vec_patterns.rs", 1196, []⟩]⟩,
  ⟨.halfs, ⟨.i, 4, 8⟩, none, [⟨"vec_patterns.rs", 1203, []⟩]⟩,
  ⟨.interleave, ⟨.i, 4, 8⟩, none, [⟨"vec_patterns.rs", 1208, []⟩]⟩,
  ⟨.partition_mask, ⟨.i, 4, 8⟩, none, [⟨"vec_patterns.rs", 1213, []⟩]⟩,
  ⟨.partition, ⟨.i, 4, 8⟩, none, [⟨"vec_patterns.rs", 1221, [("avx2", true)]⟩, ⟨"vec_patterns.rs", 1228, [("avx2", false)]⟩]⟩,
  ⟨.ones, ⟨.i, 4, 8⟩, none, [⟨"vec_patterns.rs", 1247, []⟩]⟩,
  ⟨.zeroes, ⟨.i, 4, 8⟩, none, [⟨"vec_patterns.rs", 1253, []⟩]⟩,
  ⟨.halfs, ⟨.i, 4, 4⟩, none, [⟨"vec_patterns.rs", 1260, []⟩]⟩,
  ⟨.interleave, ⟨.i, 4, 4⟩, none, [⟨"vec_patterns.rs", 1265, []⟩]⟩,
  ⟨.partition_mask, ⟨.i, 4, 4⟩, none, [⟨"vec_patterns.rs", 1270, []⟩]⟩,
  ⟨.partition, ⟨.i, 4, 4⟩, none, [⟨"vec_patterns.rs", 1278, [("sse4.1", true)]⟩, ⟨"vec_patterns.rs", 1285, [("sse4.1", false)]⟩]⟩,
  ⟨.ones, ⟨.i, 4, 4⟩, none, [⟨"vec_patterns.rs", 1300, []⟩]⟩,
  ⟨.zeroes, ⟨.i, 4, 4⟩, none, [⟨"vec_patterns.rs", 1306, []⟩]⟩,
  ⟨.halfs, ⟨.f, 4, 16⟩, none, [⟨"vec_patterns.rs", 1313, []⟩]⟩,
  ⟨.interleave, ⟨.f, 4, 16⟩, none, [⟨"vec_patterns.rs", 1318, []⟩]⟩,
  ⟨.partition_mask, ⟨.f, 4, 16⟩, none, [⟨"vec_patterns.rs", 1323, []⟩]⟩,
  ⟨.partition, ⟨.f, 4, 16⟩, none, [⟨"vec_patterns.rs", 1331, [("avx512-notyet", true)]⟩, ⟨"vec_patterns.rs", 1338, [("avx512-notyet", false)]⟩]⟩,
  ⟨.ones, ⟨.f, 4, 16⟩, none, [⟨"vec_patterns.rs", 1365, []⟩]⟩,
  ⟨.zeroes, ⟨.f, 4, 16⟩, none, [⟨"vec_patterns.rs", 1371, []⟩]⟩,
  ⟨.halfs, ⟨.f, 4, 8⟩, none, [⟨"vec_patterns.rs", 1378, []⟩]⟩,
  ⟨.interleave, ⟨.f, 4, 8⟩, none, [⟨"vec_patterns.rs", 1383, []⟩]⟩,
  ⟨.partition_mask, ⟨.f, 4, 8⟩, none, [⟨"vec_patterns.rs", 1388, []⟩]⟩,
  ⟨.partition, ⟨.f, 4, 8⟩, none, [⟨"vec_patterns.rs", 1396, [("avx2", true)]⟩, ⟨"vec_patterns.rs", 1403, [("avx2", false)]⟩]⟩,
  ⟨.ones, ⟨.f, 4, 8⟩, none, [⟨"vec_patterns.rs", 1422, []⟩]⟩,
  ⟨.zeroes, ⟨.f, 4, 8⟩, none, [⟨"vec_patterns.rs", 1428, []⟩]⟩,
  ⟨.halfs, ⟨.f, 4, 4⟩, none, [⟨"vec_patterns.rs", 1435, []⟩]⟩,
  ⟨.interleave, ⟨.f, 4, 4⟩, none, [⟨"vec_patterns.rs", 1440, []⟩]⟩,
  ⟨.partition_mask, ⟨.f, 4, 4⟩, none, [⟨"vec_patterns.rs", 1445, []⟩]⟩,
  ⟨.partition, ⟨.f, 4, 4⟩, none, [⟨"vec_patterns.rs", 1453, [("sse4.1", true)]⟩, ⟨"vec_patterns.rs", 1460, [("sse4.1", false)]⟩]⟩,
  ⟨.ones, ⟨.f, 4, 4⟩, none, [⟨"vec_patterns.rs", 1475, []⟩]⟩,
  ⟨.zeroes, ⟨.f, 4, 4⟩, none, [⟨"vec_patterns.rs", 1481, []⟩]⟩,
  ⟨.halfs, ⟨.u, 8, 8⟩, none, [⟨"vec_patterns.rs", 1488, []⟩]⟩,
  ⟨.interleave, ⟨.u, 8, 8⟩, none, [⟨"vec_patterns.rs", 1493, []⟩]⟩,
  ⟨.partition_mask, ⟨.u, 8, 8⟩, none, [⟨"vec_patterns.rs", 1498, []⟩]⟩,
  ⟨.partition, ⟨.u, 8, 8⟩, none, [⟨"vec_patterns.rs", 1506, [("avx512-notyet", true)]⟩, ⟨"vec_patterns.rs", 1513, [("avx512-notyet", false)]⟩]⟩,
  ⟨.ones, ⟨.u, 8, 8⟩, none, [⟨"vec_patterns.rs", 1532, []⟩]⟩,
  ⟨.zeroes, ⟨.u, 8, 8⟩, none, [⟨"vec_patterns.rs", 1538, []⟩]⟩,
  ⟨.halfs, ⟨.u, 8, 4⟩, none, [⟨"vec_patterns.rs", 1545, []⟩]⟩,
  ⟨.interleave, ⟨.u, 8, 4⟩, none, [⟨"vec_patterns.rs", 1550, []⟩]⟩,
  ⟨.partition_mask, ⟨.u, 8, 4⟩, none, [⟨"vec_patterns.rs", 1555, []⟩]⟩,
  ⟨.partition, ⟨.u, 8, 4⟩, none, [⟨"vec_patterns.rs", 1563, [("avx2", true)]⟩, ⟨"vec_patterns.rs", 1570, [("avx2", false)]⟩]⟩,
  ⟨.ones, ⟨.u, 8, 4⟩, none, [⟨"vec_patterns.rs", 1585, []⟩]⟩,
  ⟨.zeroes, ⟨.u, 8, 4⟩, none, [⟨"vec_patterns.rs", 1591, []⟩]⟩,
  ⟨.halfs, ⟨.u, 8, 2⟩, none, [⟨"vec_patterns.rs", 1598, []⟩]⟩,
  ⟨.interleave, ⟨.u, 8, 2⟩, none, [⟨"vec_patterns.rs", 1603, []⟩]⟩,
  ⟨.partition_mask, ⟨.u, 8, 2⟩, none, [⟨"vec_patterns.rs", 1608, []⟩]⟩,
  ⟨.partition, ⟨.u, 8, 2⟩, none, [⟨"vec_patterns.rs", 1616, [("sse4.1", true)]⟩, ⟨"vec_patterns.rs", 1623, [("sse4.1", false)]⟩]⟩,
  ⟨.ones, ⟨.u, 8, 2⟩, none, [⟨"vec_patterns.rs", 1636, []⟩]⟩,
  ⟨.zeroes, ⟨.u, 8, 2⟩, none, [⟨"vec_patterns.rs", 1642, []⟩]⟩,
  ⟨.halfs, ⟨.i, 8, 8⟩, none, [⟨"vec_patterns.rs", 1649, []⟩]⟩,
  ⟨.interleave, ⟨.i, 8, 8⟩, none, [⟨"vec_patterns.rs", 1654, []⟩]⟩,
  ⟨.partition_mask, ⟨.i, 8, 8⟩, none, [⟨"vec_patterns.rs", 1659, []⟩]⟩,
  ⟨.partition, ⟨.i, 8, 8⟩, none, [⟨"vec_patterns.rs", 1667, [("avx512-notyet", true)]⟩, ⟨"vec_patterns.rs", 1674, [("avx512-notyet", false)]⟩]⟩,
  ⟨.ones, ⟨.i, 8, 8⟩, none, [⟨"vec_patterns.rs", 1693, []⟩]⟩,
  ⟨.zeroes, ⟨.i, 8, 8⟩, none, [⟨"vec_patterns.rs", 1699, []⟩]⟩,
  ⟨.halfs, ⟨.i, 8, 4⟩, none, [⟨"vec_patterns.rs", 1706, []⟩]⟩,
  ⟨.interleave, ⟨.i, 8, 4⟩, none, [⟨"vec_patterns.rs", 1711, []⟩]⟩,
  ⟨.partition_mask, ⟨.i, 8, 4⟩, none, [⟨"vec_patterns.rs", 1716, []⟩]⟩,
  ⟨.partition, ⟨.i, 8, 4⟩, none, [⟨"vec_patterns.rs", 1724, [("avx2", true)]⟩, ⟨"vec_patterns.rs", 1731, [("avx2", false)]⟩]⟩,
  ⟨.ones, ⟨.i, 8, 4⟩, none, [⟨"vec_patterns.rs", 1746, []⟩]⟩,
  ⟨.zeroes, ⟨.i, 8, 4⟩, none, [⟨"vec_patterns.rs", 1752, []⟩]⟩,
  ⟨.halfs, ⟨.i, 8, 2⟩, none, [⟨"vec_patterns.rs", 1759, []⟩]⟩,
  ⟨.interleave, ⟨.i, 8, 2⟩, none, [⟨"vec_patterns.rs", 1764, []⟩]⟩,
  ⟨.partition_mask, ⟨.i, 8, 2⟩, none, [⟨"vec_patterns.rs", 1769, []⟩]⟩,
  ⟨.partition, ⟨.i, 8, 2⟩, none, [⟨"vec_patterns.rs", 1777, [("sse4.1", true)]⟩, ⟨"vec_patterns.rs", 1784, [("sse4.1", false)]⟩]⟩,
  ⟨.ones, ⟨.i, 8, 2⟩, none, [⟨"vec_patterns.rs", 1797, []⟩]⟩,
  ⟨.zeroes, ⟨.i, 8, 2⟩, none, [⟨"vec_patterns.rs", 1803, []⟩]⟩,
  ⟨.halfs, ⟨.f, 8, 8⟩, none, [⟨"vec_patterns.rs", 1810, []⟩]⟩,
  ⟨.interleave, ⟨.f, 8, 8⟩, none, [⟨"vec_patterns.rs", 1815, []⟩]⟩,
  ⟨.partition_mask, ⟨.f, 8, 8⟩, none, [⟨"vec_patterns.rs", 1820, []⟩]⟩,
  ⟨.partition, ⟨.f, 8, 8⟩, none, [⟨"vec_patterns.rs", 1828, [("avx512-notyet", true)]⟩, ⟨"vec_patterns.rs", 1835, [("avx512-notyet", false)]⟩]⟩,
  ⟨.ones, ⟨.f, 8, 8⟩, none, [⟨"vec_patterns.rs", 1854, []⟩]⟩,
  ⟨.zeroes, ⟨.f, 8, 8⟩, none, [⟨"vec_patterns.rs", 1860, []⟩]⟩,
  ⟨.halfs, ⟨.f, 8, 4⟩, none, [⟨"vec_patterns.rs", 1867, []⟩]⟩,
  ⟨.interleave, ⟨.f, 8, 4⟩, none, [⟨"vec_patterns.rs", 1872, []⟩]⟩,
  ⟨.partition_mask, ⟨.f, 8, 4⟩, none, [⟨"vec_patterns.rs", 1877, []⟩]⟩,
  ⟨.partition, ⟨.f, 8, 4⟩, none, [⟨"vec_patterns.rs", 1885, [("avx2", true)]⟩, ⟨"vec_patterns.rs", 1892, [("avx2", false)]⟩]⟩,
  ⟨.ones, ⟨.f, 8, 4⟩, none, [⟨"vec_patterns.rs", 1907, []⟩]⟩,
  ⟨.zeroes, ⟨.f, 8, 4⟩, none, [⟨"vec_patterns.rs", 1913, []⟩]⟩,
  ⟨.halfs, ⟨.f, 8, 2⟩, none, [⟨"vec_patterns.rs", 1920, []⟩]⟩,
  ⟨.interleave, ⟨.f, 8, 2⟩, none, [⟨"vec_patterns.rs", 1925, []⟩]⟩,
  ⟨.partition_mask, ⟨.f, 8, 2⟩, none, [⟨"vec_patterns.rs", 1930, []⟩]⟩,
  ⟨.partition, ⟨.f, 8, 2⟩, none, [⟨"vec_patterns.rs", 1938, [("sse4.1", true)]⟩, ⟨"vec_patterns.rs", 1945, [("sse4.1", false)]⟩]⟩,
  ⟨.ones, ⟨.f, 8, 2⟩, none, [⟨"vec_patterns.rs", 1958, []⟩]⟩,
  ⟨.zeroes, ⟨.f, 8, 2⟩, none, [⟨"vec_patterns.rs", 1964, []⟩]⟩,
  ⟨.load, ⟨.u, 1, 64⟩, none, [⟨"vecs.rs", 4, []⟩]⟩,
  ⟨.load_unchecked, ⟨.u, 1, 64⟩, none, [⟨"vecs.rs", 4, []⟩]⟩,
  ⟨.store, ⟨.u, 1, 64⟩, none, [⟨"vecs.rs", 4, []⟩]⟩,
  ⟨.store_unchecked, ⟨.u, 1, 64⟩, none, [⟨"vecs.rs", 4, []⟩]⟩,
  ⟨.coalesce, ⟨.u, 1, 64⟩, none, [⟨"vecs.rs", 4, []⟩]⟩,
  ⟨.extract, ⟨.u, 1, 64⟩, none, [⟨"vecs.rs", 4, []⟩]⟩,
  ⟨.extract_unchecked, ⟨.u, 1, 64⟩, none, [⟨"vecs.rs", 4, []⟩]⟩,
  ⟨.replace, ⟨.u, 1, 64⟩, none, [⟨"vecs.rs", 4, []⟩]⟩,
  ⟨.replace_unchecked, ⟨.u, 1, 64⟩, none, [⟨"vecs.rs", 4, []⟩]⟩,
  ⟨.splat, ⟨.u, 1, 64⟩, none, [⟨"vecs.rs", 4, []⟩]⟩,
  ⟨.default, ⟨.u, 1, 64⟩, none, [⟨"vecs.rs", 4, []⟩]⟩,
  ⟨.product, ⟨.u, 1, 64⟩, none, [⟨"vecs.rs", 4, []⟩]⟩,
  ⟨.scalar_reduce, ⟨.u, 1, 64⟩, none, [⟨"vecs.rs", 4, []⟩]⟩,
  ⟨.load, ⟨.u, 1, 32⟩, none, [⟨"vecs.rs", 5, []⟩]⟩,
  ⟨.load_unchecked, ⟨.u, 1, 32⟩, none, [⟨"vecs.rs", 5, []⟩]⟩,
  ⟨.store, ⟨.u, 1, 32⟩, none, [⟨"vecs.rs", 5, []⟩]⟩,
  ⟨.store_unchecked, ⟨.u, 1, 32⟩, none, [⟨"vecs.rs", 5, []⟩]⟩,
  ⟨.coalesce, ⟨.u, 1, 32⟩, none, [⟨"vecs.rs", 5, []⟩]⟩,
  ⟨.extract, ⟨.u, 1, 32⟩, none, [⟨"vecs.rs", 5, []⟩]⟩,
  ⟨.extract_unchecked, ⟨.u, 1, 32⟩, none, [⟨"vecs.rs", 5, []⟩]⟩,
  ⟨.replace, ⟨.u, 1, 32⟩, none, [⟨"vecs.rs", 5, []⟩]⟩,
  ⟨.replace_unchecked, ⟨.u, 1, 32⟩, none, [⟨"vecs.rs", 5, []⟩]⟩,
  ⟨.splat, ⟨.u, 1, 32⟩, none, [⟨"vecs.rs", 5, []⟩]⟩,
  ⟨.default, ⟨.u, 1, 32⟩, none, [⟨"vecs.rs", 5, []⟩]⟩,
  ⟨.product, ⟨.u, 1, 32⟩, none, [⟨"vecs.rs", 5, []⟩]⟩,
  ⟨.scalar_reduce, ⟨.u, 1, 32⟩, none, [⟨"vecs.rs", 5, []⟩]⟩,
  ⟨.load, ⟨.u, 1, 16⟩, none, [⟨"vecs.rs", 6, []⟩]⟩,
  ⟨.load_unchecked, ⟨.u, 1, 16⟩, none, [⟨"vecs.rs", 6, []⟩]⟩,
  ⟨.store, ⟨.u, 1, 16⟩, none, [⟨"vecs.rs", 6, []⟩]⟩,
  ⟨.store_unchecked, ⟨.u, 1, 16⟩, none, [⟨"vecs.rs", 6, []⟩]⟩,
  ⟨.coalesce, ⟨.u, 1, 16⟩, none, [⟨"vecs.rs", 6, []⟩]⟩,
  ⟨.extract, ⟨.u, 1, 16⟩, none, [⟨"vecs.rs", 6, []⟩]⟩,
  ⟨.extract_unchecked, ⟨.u, 1, 16⟩, none, [⟨"vecs.rs", 6, []⟩]⟩,
  ⟨.replace, ⟨.u, 1, 16⟩, none, [⟨"vecs.rs", 6, []⟩]⟩,
  ⟨.replace_unchecked, ⟨.u, 1, 16⟩, none, [⟨"vecs.rs", 6, []⟩]⟩,
  ⟨.splat, ⟨.u, 1, 16⟩, none, [⟨"vecs.rs", 6, []⟩]⟩,
  ⟨.default, ⟨.u, 1, 16⟩, none, [⟨"vecs.rs", 6, []⟩]⟩,
  ⟨.product, ⟨.u, 1, 16⟩, none, [⟨"vecs.rs", 6, []⟩]⟩,
  ⟨.scalar_reduce, ⟨.u, 1, 16⟩, none, [⟨"vecs.rs", 6, []⟩]⟩,
  ⟨.load, ⟨.i, 1, 64⟩, none, [⟨"vecs.rs", 7, []⟩]⟩,
  ⟨.load_unchecked, ⟨.i, 1, 64⟩, none, [⟨"vecs.rs", 7, []⟩]⟩,
  ⟨.store, ⟨.i, 1, 64⟩, none, [⟨"vecs.rs", 7, []⟩]⟩,
  ⟨.store_unchecked, ⟨.i, 1, 64⟩, none, [⟨"vecs.rs", 7, []⟩]⟩,
  ⟨.coalesce, ⟨.i, 1, 64⟩, none, [⟨"vecs.rs", 7, []⟩]⟩,
  ⟨.extract, ⟨.i, 1, 64⟩, none, [⟨"vecs.rs", 7, []⟩]⟩,
  ⟨.extract_unchecked, ⟨.i, 1, 64⟩, none, [⟨"vecs.rs", 7, []⟩]⟩,
  ⟨.replace, ⟨.i, 1, 64⟩, none, [⟨"vecs.rs", 7, []⟩]⟩,
  ⟨.replace_unchecked, ⟨.i, 1, 64⟩, none, [⟨"vecs.rs", 7, []⟩]⟩,
  ⟨.splat, ⟨.i, 1, 64⟩, none, [⟨"vecs.rs", 7, []⟩]⟩,
  ⟨.default, ⟨.i, 1, 64⟩, none, [⟨"vecs.rs", 7, []⟩]⟩,
  ⟨.product, ⟨.i, 1, 64⟩, none, [⟨"vecs.rs", 7, []⟩]⟩,
  ⟨.scalar_reduce, ⟨.i, 1, 64⟩, none, [⟨"vecs.rs", 7, []⟩]⟩,
  ⟨.load, ⟨.i, 1, 32⟩, none, [⟨"vecs.rs", 8, []⟩]⟩,
  ⟨.load_unchecked, ⟨.i, 1, 32⟩, none, [⟨"vecs.rs", 8, []⟩]⟩,
  ⟨.store, ⟨.i, 1, 32⟩, none, [⟨"vecs.rs", 8, []⟩]⟩,
  ⟨.store_unchecked, ⟨.i, 1, 32⟩, none, [⟨"vecs.rs", 8, []⟩]⟩,
  ⟨.coalesce, ⟨.i, 1, 32⟩, none, [⟨"vecs.rs", 8, []⟩]⟩,
  ⟨.extract, ⟨.i, 1, 32⟩, none, [⟨"vecs.rs", 8, []⟩]⟩,
  ⟨.extract_unchecked, ⟨.i, 1, 32⟩, none, [⟨"vecs.rs", 8, []⟩]⟩,
  ⟨.replace, ⟨.i, 1, 32⟩, none, [⟨"vecs.rs", 8, []⟩]⟩,
  ⟨.replace_unchecked, ⟨.i, 1, 32⟩, none, [⟨"vecs.rs", 8, []⟩]⟩,
  ⟨.splat, ⟨.i, 1, 32⟩, none, [⟨"vecs.rs", 8, []⟩]⟩,
  ⟨.default, ⟨.i, 1, 32⟩, none, [⟨"vecs.rs", 8, []⟩]⟩,
  ⟨.product, ⟨.i, 1, 32⟩, none, [⟨"vecs.rs", 8, []⟩]⟩,
  ⟨.scalar_reduce, ⟨.i, 1, 32⟩, none, [⟨"vecs.rs", 8, []⟩]⟩,
  ⟨.load, ⟨.i, 1, 16⟩, none, [⟨"vecs.rs", 9, []⟩]⟩,
  ⟨.load_unchecked, ⟨.i, 1, 16⟩, none, [⟨"vecs.rs", 9, []⟩]⟩,
  ⟨.store, ⟨.i, 1, 16⟩, none, [⟨"vecs.rs", 9, []⟩]⟩,
  ⟨.store_unchecked, ⟨.i, 1, 16⟩, none, [⟨"vecs.rs", 9, []⟩]⟩,
  ⟨.coalesce, ⟨.i, 1, 16⟩, none, [⟨"vecs.rs", 9, []⟩]⟩,
  ⟨.extract, ⟨.i, 1, 16⟩, none, [⟨"vecs.rs", 9, []⟩]⟩,
  ⟨.extract_unchecked, ⟨.i, 1, 16⟩, none, [⟨"vecs.rs", 9, []⟩]⟩,
  ⟨.replace, ⟨.i, 1, 16⟩, none, [⟨"vecs.rs", 9, []⟩]⟩,
  ⟨.replace_unchecked, ⟨.i, 1, 16⟩, none, [⟨"vecs.rs", 9, []⟩]⟩,
  ⟨.splat, ⟨.i, 1, 16⟩, none, [⟨"vecs.rs", 9, []⟩]⟩,
  ⟨.default, ⟨.i, 1, 16⟩, none, [⟨"vecs.rs", 9, []⟩]⟩,
  ⟨.product, ⟨.i, 1, 16⟩, none, [⟨"vecs.rs", 9, []⟩]⟩,
  ⟨.scalar_reduce, ⟨.i, 1, 16⟩, none, [⟨"vecs.rs", 9, []⟩]⟩,
  ⟨.load, ⟨.u, 2, 32⟩, none, [⟨"vecs.rs", 10, []⟩]⟩,
  ⟨.load_unchecked, ⟨.u, 2, 32⟩, none, [⟨"vecs.rs", 10, []⟩]⟩,
  ⟨.store, ⟨.u, 2, 32⟩, none, [⟨"vecs.rs", 10, []⟩]⟩,
  ⟨.store_unchecked, ⟨.u, 2, 32⟩, none, [⟨"vecs.rs", 10, []⟩]⟩,
  ⟨.coalesce, ⟨.u, 2, 32⟩, none, [⟨"vecs.rs", 10, []⟩]⟩,
  ⟨.extract, ⟨.u, 2, 32⟩, none, [⟨"vecs.rs", 10, []⟩]⟩,
  ⟨.extract_unchecked, ⟨.u, 2, 32⟩, none, [⟨"vecs.rs", 10, []⟩]⟩,
  ⟨.replace, ⟨.u, 2, 32⟩, none, [⟨"vecs.rs", 10, []⟩]⟩,
  ⟨.replace_unchecked, ⟨.u, 2, 32⟩, none, [⟨"vecs.rs", 10, []⟩]⟩,
  ⟨.splat, ⟨.u, 2, 32⟩, none, [⟨"vecs.rs", 10, []⟩]⟩,
  ⟨.default, ⟨.u, 2, 32⟩, none, [⟨"vecs.rs", 10, []⟩]⟩,
  ⟨.product, ⟨.u, 2, 32⟩, none, [⟨"vecs.rs", 10, []⟩]⟩,
  ⟨.scalar_reduce, ⟨.u, 2, 32⟩, none, [⟨"vecs.rs", 10, []⟩]⟩,
  ⟨.load, ⟨.u, 2, 16⟩, none, [⟨"vecs.rs", 11, []⟩]⟩,
  ⟨.load_unchecked, ⟨.u, 2, 16⟩, none, [⟨"vecs.rs", 11, []⟩]⟩,
  ⟨.store, ⟨.u, 2, 16⟩, none, [⟨"vecs.rs", 11, []⟩]⟩,
  ⟨.store_unchecked, ⟨.u, 2, 16⟩, none, [⟨"vecs.rs", 11, []⟩]⟩,
  ⟨.coalesce, ⟨.u, 2, 16⟩, none, [⟨"vecs.rs", 11, []⟩]⟩,
  ⟨.extract, ⟨.u, 2, 16⟩, none, [⟨"vecs.rs", 11, []⟩]⟩,
  ⟨.extract_unchecked, ⟨.u, 2, 16⟩, none, [⟨"vecs.rs", 11, []⟩]⟩,
  ⟨.replace, ⟨.u, 2, 16⟩, none, [⟨"vecs.rs", 11, []⟩]⟩,
  ⟨.replace_unchecked, ⟨.u, 2, 16⟩, none, [⟨"vecs.rs", 11, []⟩]⟩,
  ⟨.splat, ⟨.u, 2, 16⟩, none, [⟨"vecs.rs", 11, []⟩]⟩,
  ⟨.default, ⟨.u, 2, 16⟩, none, [⟨"vecs.rs", 11, []⟩]⟩,
  ⟨.product, ⟨.u, 2, 16⟩, none, [⟨"vecs.rs", 11, []⟩]⟩,
  ⟨.scalar_reduce, ⟨.u, 2, 16⟩, none, [⟨"vecs.rs", 11, []⟩]⟩,
  ⟨.load, ⟨.u, 2, 8⟩, none, [⟨"vecs.rs", 12, []⟩]⟩,
  ⟨.load_unchecked, ⟨.u, 2, 8⟩, none, [⟨"vecs.rs", 12, []⟩]⟩,
  ⟨.store, ⟨.u, 2, 8⟩, none, [⟨"vecs.rs", 12, []⟩]⟩,
  ⟨.store_unchecked, ⟨.u, 2, 8⟩, none, [⟨"vecs.rs", 12, []⟩]⟩,
  ⟨.coalesce, ⟨.u, 2, 8⟩, none, [⟨"vecs.rs", 12, []⟩]⟩,
  ⟨.extract, ⟨.u, 2, 8⟩, none, [⟨"vecs.rs", 12, []⟩]⟩,
  ⟨.extract_unchecked, ⟨.u, 2, 8⟩, none, [⟨"vecs.rs", 12, []⟩]⟩,
  ⟨.replace, ⟨.u, 2, 8⟩, none, [⟨"vecs.rs", 12, []⟩]⟩,
  ⟨.replace_unchecked, ⟨.u, 2, 8⟩, none, [⟨"vecs.rs", 12, []⟩]⟩,
  ⟨.splat, ⟨.u, 2, 8⟩, none, [⟨"vecs.rs", 12, []⟩]⟩,
  ⟨.default, ⟨.u, 2, 8⟩, none, [⟨"vecs.rs", 12, []⟩]⟩,
  ⟨.product, ⟨.u, 2, 8⟩, none, [⟨"vecs.rs", 12, []⟩]⟩,
  ⟨.scalar_reduce, ⟨.u, 2, 8⟩, none, [⟨"vecs.rs", 12, []⟩]⟩,
  ⟨.load, ⟨.i, 2, 32⟩, none, [⟨"vecs.rs", 13, []⟩]⟩,
  ⟨.load_unchecked, ⟨.i, 2, 32⟩, none, [⟨"vecs.rs", 13, []⟩]⟩,
  ⟨.store, ⟨.i, 2, 32⟩, none, [⟨"vecs.rs", 13, []⟩]⟩,
  ⟨.store_unchecked, ⟨.i, 2, 32⟩, none, [⟨"vecs.rs", 13, []⟩]⟩,
  ⟨.coalesce, ⟨.i, 2, 32⟩, none, [⟨"vecs.rs", 13, []⟩]⟩,
  ⟨.extract, ⟨.i, 2, 32⟩, none, [⟨"vecs.rs", 13, []⟩]⟩,
  ⟨.extract_unchecked, ⟨.i, 2, 32⟩, none, [⟨"vecs.rs", 13, []⟩]⟩,
  ⟨.replace, ⟨.i, 2, 32⟩, none, [⟨"vecs.rs", 13, []⟩]⟩,
  ⟨.replace_unchecked, ⟨.i, 2, 32⟩, none, [⟨"vecs.rs", 13, []⟩]⟩,
  ⟨.splat, ⟨.i, 2, 32⟩, none, [⟨"vecs.rs", 13, []⟩]⟩,
  ⟨.default, ⟨.i, 2, 32⟩, none, [⟨"vecs.rs", 13, []⟩]⟩,
  ⟨.product, ⟨.i, 2, 32⟩, none, [⟨"vecs.rs", 13, []⟩]⟩,
  ⟨.scalar_reduce, ⟨.i, 2, 32⟩, none, [⟨"vecs.rs", 13, []⟩]⟩,
  ⟨.load, ⟨.i, 2, 16⟩, none, [⟨"vecs.rs", 14, []⟩]⟩,
  ⟨.load_unchecked, ⟨.i, 2, 16⟩, none, [⟨"vecs.rs", 14, []⟩]⟩,
  ⟨.store, ⟨.i, 2, 16⟩, none, [⟨"vecs.rs", 14, []⟩]⟩,
  ⟨.store_unchecked, ⟨.i, 2, 16⟩, none, [⟨"vecs.rs", 14, []⟩]⟩,
  ⟨.coalesce, ⟨.i, 2, 16⟩, none, [⟨"vecs.rs", 14, []⟩]⟩,
  ⟨.extract, ⟨.i, 2, 16⟩, none, [⟨"vecs.rs", 14, []⟩]⟩,
  ⟨.extract_unchecked, ⟨.i, 2, 16⟩, none, [⟨"vecs.rs", 14, []⟩]⟩,
  ⟨.replace, ⟨.i, 2, 16⟩, none, [⟨"vecs.rs", 14, []⟩]⟩,
  ⟨.replace_unchecked, ⟨.i, 2, 16⟩, none, [⟨"vecs.rs", 14, []⟩]⟩,
  ⟨.splat, ⟨.i, 2, 16⟩, none, [⟨"vecs.rs", 14, []⟩]⟩,
  ⟨.default, ⟨.i, 2, 16⟩, none, [⟨"vecs.rs", 14, []⟩]⟩,
  ⟨.product, ⟨.i, 2, 16⟩, none, [⟨"vecs.rs", 14, []⟩]⟩,
  ⟨.scalar_reduce, ⟨.i, 2, 16⟩, none, [⟨"vecs.rs", 14, []⟩]⟩,
  ⟨.load, ⟨.i, 2, 8⟩, none, [⟨"vecs.rs", 15, []⟩]⟩,
  ⟨.load_unchecked, ⟨.i, 2, 8⟩, none, [⟨"vecs.rs", 15, []⟩]⟩,
  ⟨.store, ⟨.i, 2, 8⟩, none, [⟨"vecs.rs", 15, []⟩]⟩,
  ⟨.store_unchecked, ⟨.i, 2, 8⟩, none, [⟨"vecs.rs", 15, []⟩]⟩,
  ⟨.coalesce, ⟨.i, 2, 8⟩, none, [⟨"vecs.rs", 15, []⟩]⟩,
  ⟨.extract, ⟨.i, 2, 8⟩, none, [⟨"vecs.rs", 15, []⟩]⟩,
  ⟨.extract_unchecked, ⟨.i, 2, 8⟩, none, [⟨"vecs.rs", 15, []⟩]⟩,
  ⟨.replace, ⟨.i, 2, 8⟩, none, [⟨"vecs.rs", 15, []⟩]⟩,
  ⟨.replace_unchecked, ⟨.i, 2, 8⟩, none, [⟨"vecs.rs", 15, []⟩]⟩,
  ⟨.splat, ⟨.i, 2, 8⟩, none, [⟨"vecs.rs", 15, []⟩]⟩,
  ⟨.default, ⟨.i, 2, 8⟩, none, [⟨"vecs.rs", 15, []⟩]⟩,
  ⟨.product, ⟨.i, 2, 8⟩, none, [⟨"vecs.rs", 15, []⟩]⟩,
  ⟨.scalar_reduce, ⟨.i, 2, 8⟩, none, [⟨"vecs.rs", 15, []⟩]⟩,
  ⟨.load, ⟨.u, 4, 16⟩, none, [⟨"vecs.rs", 16, []⟩]⟩,
  ⟨.load_unchecked, ⟨.u, 4, 16⟩, none, [⟨"vecs.rs", 16, []⟩]⟩,
  ⟨.store, ⟨.u, 4, 16⟩, none, [⟨"vecs.rs", 16, []⟩]⟩,
  ⟨.store_unchecked, ⟨.u, 4, 16⟩, none, [⟨"vecs.rs", 16, []⟩]⟩,
  ⟨.coalesce, ⟨.u, 4, 16⟩, none, [⟨"vecs.rs", 16, []⟩]⟩,
  ⟨.extract, ⟨.u, 4, 16⟩, none, [⟨"vecs.rs", 16, []⟩]⟩,
  ⟨.extract_unchecked, ⟨.u, 4, 16⟩, none, [⟨"vecs.rs", 16, []⟩]⟩,
  ⟨.replace, ⟨.u, 4, 16⟩, none, [⟨"vecs.rs", 16, []⟩]⟩,
  ⟨.replace_unchecked, ⟨.u, 4, 16⟩, none, [⟨"vecs.rs", 16, []⟩]⟩,
  ⟨.splat, ⟨.u, 4, 16⟩, none, [⟨"vecs.rs", 16, []⟩]⟩,
  ⟨.default, ⟨.u, 4, 16⟩, none, [⟨"vecs.rs", 16, []⟩]⟩,
  ⟨.product, ⟨.u, 4, 16⟩, none, [⟨"vecs.rs", 16, []⟩]⟩,
  ⟨.scalar_reduce, ⟨.u, 4, 16⟩, none, [⟨"vecs.rs", 16, []⟩]⟩,
  ⟨.load, ⟨.u, 4, 8⟩, none, [⟨"vecs.rs", 17, []⟩]⟩,
  ⟨.load_unchecked, ⟨.u, 4, 8⟩, none, [⟨"vecs.rs", 17, []⟩]⟩,
  ⟨.store, ⟨.u, 4, 8⟩, none, [⟨"vecs.rs", 17, []⟩]⟩,
  ⟨.store_unchecked, ⟨.u, 4, 8⟩, none, [⟨"vecs.rs", 17, []⟩]⟩,
  ⟨.coalesce, ⟨.u, 4, 8⟩, none, [⟨"vecs.rs", 17, []⟩]⟩,
  ⟨.extract, ⟨.u, 4, 8⟩, none, [⟨"vecs.rs", 17, []⟩]⟩,
  ⟨.extract_unchecked, ⟨.u, 4, 8⟩, none, [⟨"vecs.rs", 17, []⟩]⟩,
  ⟨.replace, ⟨.u, 4, 8⟩, none, [⟨"vecs.rs", 17, []⟩]⟩,
  ⟨.replace_unchecked, ⟨.u, 4, 8⟩, none, [⟨"vecs.rs", 17, []⟩]⟩,
  ⟨.splat, ⟨.u, 4, 8⟩, none, [⟨"vecs.rs", 17, []⟩]⟩,
  ⟨.default, ⟨.u, 4, 8⟩, none, [⟨"vecs.rs", 17, []⟩]⟩,
  ⟨.product, ⟨.u, 4, 8⟩, none, [⟨"vecs.rs", 17, []⟩]⟩,
  ⟨.scalar_reduce, ⟨.u, 4, 8⟩, none, [⟨"vecs.rs", 17, []⟩]⟩,
  ⟨.load, ⟨.u, 4, 4⟩, none, [⟨"vecs.rs", 18, []⟩]⟩,
  ⟨.load_unchecked, ⟨.u, 4, 4⟩, none, [⟨"vecs.rs", 18, []⟩]⟩,
  ⟨.store, ⟨.u, 4, 4⟩, none, [⟨"vecs.rs", 18, []⟩]⟩,
  ⟨.store_unchecked, ⟨.u, 4, 4⟩, none, [⟨"vecs.rs", 18, []⟩]⟩,
  ⟨.coalesce, ⟨.u, 4, 4⟩, none, [⟨"vecs.rs", 18, []⟩]⟩,
  ⟨.extract, ⟨.u, 4, 4⟩, none, [⟨"vecs.rs", 18, []⟩]⟩,
  ⟨.extract_unchecked, ⟨.u, 4, 4⟩, none, [⟨"vecs.rs", 18, []⟩]⟩,
  ⟨.replace, ⟨.u, 4, 4⟩, none, [⟨"vecs.rs", 18, []⟩]⟩,
  ⟨.replace_unchecked, ⟨.u, 4, 4⟩, none, [⟨"vecs.rs", 18, []⟩]⟩,
  ⟨.splat, ⟨.u, 4, 4⟩, none, [⟨"vecs.rs", 18, []⟩]⟩,
  ⟨.default, ⟨.u, 4, 4⟩, none, [⟨"vecs.rs", 18, []⟩]⟩,
  ⟨.product, ⟨.u, 4, 4⟩, none, [⟨"vecs.rs", 18, []⟩]⟩,
  ⟨.scalar_reduce, ⟨.u, 4, 4⟩, none, [⟨"vecs.rs", 18, []⟩]⟩,
  ⟨.load, ⟨.i, 4, 16⟩, none, [⟨"vecs.rs", 19, []⟩]⟩,
  ⟨.load_unchecked, ⟨.i, 4, 16⟩, none, [⟨"vecs.rs", 19, []⟩]⟩,
  ⟨.store, ⟨.i, 4, 16⟩, none, [⟨"vecs.rs", 19, []⟩]⟩,
  ⟨.store_unchecked, ⟨.i, 4, 16⟩, none, [⟨"vecs.rs", 19, []⟩]⟩,
  ⟨.coalesce, ⟨.i, 4, 16⟩, none, [⟨"vecs.rs", 19, []⟩]⟩,
  ⟨.extract, ⟨.i, 4, 16⟩, none, [⟨"vecs.rs", 19, []⟩]⟩,
  ⟨.extract_unchecked, ⟨.i, 4, 16⟩, none, [⟨"vecs.rs", 19, []⟩]⟩,
  ⟨.replace, ⟨.i, 4, 16⟩, none, [⟨"vecs.rs", 19, []⟩]⟩,
  ⟨.replace_unchecked, ⟨.i, 4, 16⟩, none, [⟨"vecs.rs", 19, []⟩]⟩,
  ⟨.splat, ⟨.i, 4, 16⟩, none, [⟨"vecs.rs", 19, []⟩]⟩,
  ⟨.default, ⟨.i, 4, 16⟩, none, [⟨"vecs.rs", 19, []⟩]⟩,
  ⟨.product, ⟨.i, 4, 16⟩, none, [⟨"vecs.rs", 19, []⟩]⟩,
  ⟨.scalar_reduce, ⟨.i, 4, 16⟩, none, [⟨"vecs.rs", 19, []⟩]⟩,
  ⟨.load, ⟨.i, 4, 8⟩, none, [⟨"vecs.rs", 20, []⟩]⟩,
  ⟨.load_unchecked, ⟨.i, 4, 8⟩, none, [⟨"vecs.rs", 20, []⟩]⟩,
  ⟨.store, ⟨.i, 4, 8⟩, none, [⟨"vecs.rs", 20, []⟩]⟩,
  ⟨.store_unchecked, ⟨.i, 4, 8⟩, none, [⟨"vecs.rs", 20, []⟩]⟩,
  ⟨.coalesce, ⟨.i, 4, 8⟩, none, [⟨"vecs.rs", 20, []⟩]⟩,
  ⟨.extract, ⟨.i, 4, 8⟩, none, [⟨"vecs.rs", 20, []⟩]⟩,
  ⟨.extract_unchecked, ⟨.i, 4, 8⟩, none, [⟨"vecs.rs", 20, []⟩]⟩,
  ⟨.replace, ⟨.i, 4, 8⟩, none, [⟨"vecs.rs", 20, []⟩]⟩,
  ⟨.replace_unchecked, ⟨.i, 4, 8⟩, none, [⟨"vecs.rs", 20, []⟩]⟩,
  ⟨.splat, ⟨.i, 4, 8⟩, none, [⟨"vecs.rs", 20, []⟩]⟩,
  ⟨.default, ⟨.i, 4, 8⟩, none, [⟨"vecs.rs", 20, []⟩]⟩,
  ⟨.product, ⟨.i, 4, 8⟩, none, [⟨"vecs.rs", 20, []⟩]⟩,
  ⟨.scalar_reduce, ⟨.i, 4, 8⟩, none, [⟨"vecs.rs", 20, []⟩]⟩,
  ⟨.load, ⟨.i, 4, 4⟩, none, [⟨"vecs.rs", 21, []⟩]⟩,
  ⟨.load_unchecked, ⟨.i, 4, 4⟩, none, [⟨"vecs.rs", 21, []⟩]⟩,
  ⟨.store, ⟨.i, 4, 4⟩, none, [⟨"vecs.rs", 21, []⟩]⟩,
  ⟨.store_unchecked, ⟨.i, 4, 4⟩, none, [⟨"vecs.rs", 21, []⟩]⟩,
  ⟨.coalesce, ⟨.i, 4, 4⟩, none, [⟨"vecs.rs", 21, []⟩]⟩,
  ⟨.extract, ⟨.i, 4, 4⟩, none, [⟨"vecs.rs", 21, []⟩]⟩,
  ⟨.extract_unchecked, ⟨.i, 4, 4⟩, none, [⟨"vecs.rs", 21, []⟩]⟩,
  ⟨.replace, ⟨.i, 4, 4⟩, none, [⟨"vecs.rs", 21, []⟩]⟩,
  ⟨.replace_unchecked, ⟨.i, 4, 4⟩, none, [⟨"vecs.rs", 21, []⟩]⟩,
  ⟨.splat, ⟨.i, 4, 4⟩, none, [⟨"vecs.rs", 21, []⟩]⟩,
  ⟨.default, ⟨.i, 4, 4⟩, none, [⟨"vecs.rs", 21, []⟩]⟩,
  ⟨.product, ⟨.i, 4, 4⟩, none, [⟨"vecs.rs", 21, []⟩]⟩,
  ⟨.scalar_reduce, ⟨.i, 4, 4⟩, none, [⟨"vecs.rs", 21, []⟩]⟩,
  ⟨.load, ⟨.f, 4, 16⟩, none, [⟨"vecs.rs", 22, []⟩]⟩,
  ⟨.load_unchecked, ⟨.f, 4, 16⟩, none, [⟨"vecs.rs", 22, []⟩]⟩,
  ⟨.store, ⟨.f, 4, 16⟩, none, [⟨"vecs.rs", 22, []⟩]⟩,
  ⟨.store_unchecked, ⟨.f, 4, 16⟩, none, [⟨"vecs.rs", 22, []⟩]⟩,
  ⟨.coalesce, ⟨.f, 4, 16⟩, none, [⟨"vecs.rs", 22, []⟩]⟩,
  ⟨.extract, ⟨.f, 4, 16⟩, none, [⟨"vecs.rs", 22, []⟩]⟩,
  ⟨.extract_unchecked, ⟨.f, 4, 16⟩, none, [⟨"vecs.rs", 22, []⟩]⟩,
  ⟨.replace, ⟨.f, 4, 16⟩, none, [⟨"vecs.rs", 22, []⟩]⟩,
  ⟨.replace_unchecked, ⟨.f, 4, 16⟩, none, [⟨"vecs.rs", 22, []⟩]⟩,
  ⟨.splat, ⟨.f, 4, 16⟩, none, [⟨"vecs.rs", 22, []⟩]⟩,
  ⟨.default, ⟨.f, 4, 16⟩, none, [⟨"vecs.rs", 22, []⟩]⟩,
  ⟨.product, ⟨.f, 4, 16⟩, none, [⟨"vecs.rs", 22, []⟩]⟩,
  ⟨.scalar_reduce, ⟨.f, 4, 16⟩, none, [⟨"vecs.rs", 22, []⟩]⟩,
  ⟨.load, ⟨.f, 4, 8⟩, none, [⟨"vecs.rs", 23, []⟩]⟩,
  ⟨.load_unchecked, ⟨.f, 4, 8⟩, none, [⟨"vecs.rs", 23, []⟩]⟩,
  ⟨.store, ⟨.f, 4, 8⟩, none, [⟨"vecs.rs", 23, []⟩]⟩,
  ⟨.store_unchecked, ⟨.f, 4, 8⟩, none, [⟨"vecs.rs", 23, []⟩]⟩,
  ⟨.coalesce, ⟨.f, 4, 8⟩, none, [⟨"vecs.rs", 23, []⟩]⟩,
  ⟨.extract, ⟨.f, 4, 8⟩, none, [⟨"vecs.rs", 23, []⟩]⟩,
  ⟨.extract_unchecked, ⟨.f, 4, 8⟩, none, [⟨"vecs.rs", 23, []⟩]⟩,
  ⟨.replace, ⟨.f, 4, 8⟩, none, [⟨"vecs.rs", 23, []⟩]⟩,
  ⟨.replace_unchecked, ⟨.f, 4, 8⟩, none, [⟨"vecs.rs", 23, []⟩]⟩,
  ⟨.splat, ⟨.f, 4, 8⟩, none, [⟨"vecs.rs", 23, []⟩]⟩,
  ⟨.default, ⟨.f, 4, 8⟩, none, [⟨"vecs.rs", 23, []⟩]⟩,
  ⟨.product, ⟨.f, 4, 8⟩, none, [⟨"vecs.rs", 23, []⟩]⟩,
  ⟨.scalar_reduce, ⟨.f, 4, 8⟩, none, [⟨"vecs.rs", 23, []⟩]⟩,
  ⟨.load, ⟨.f, 4, 4⟩, none, [⟨"vecs.rs", 24, []⟩]⟩,
  ⟨.load_unchecked, ⟨.f, 4, 4⟩, none, [⟨"vecs.rs", 24, []⟩]⟩,
  ⟨.store, ⟨.f, 4, 4⟩, none, [⟨"vecs.rs", 24, []⟩]⟩,
  ⟨.store_unchecked, ⟨.f, 4, 4⟩, none, [⟨"vecs.rs", 24, []⟩]⟩,
  ⟨.coalesce, ⟨.f, 4, 4⟩, none, [⟨"vecs.rs", 24, []⟩]⟩,
  ⟨.extract, ⟨.f, 4, 4⟩, none, [⟨"vecs.rs", 24, []⟩]⟩,
  ⟨.extract_unchecked, ⟨.f, 4, 4⟩, none, [⟨"vecs.rs", 24, []⟩]⟩,
  ⟨.replace, ⟨.f, 4, 4⟩, none, [⟨"vecs.rs", 24, []⟩]⟩,
  ⟨.replace_unchecked, ⟨.f, 4, 4⟩, none, [⟨"vecs.rs", 24, []⟩]⟩,
  ⟨.splat, ⟨.f, 4, 4⟩, none, [⟨"vecs.rs", 24, []⟩]⟩,
  ⟨.default, ⟨.f, 4, 4⟩, none, [⟨"vecs.rs", 24, []⟩]⟩,
  ⟨.product, ⟨.f, 4, 4⟩, none, [⟨"vecs.rs", 24, []⟩]⟩,
  ⟨.scalar_reduce, ⟨.f, 4, 4⟩, none, [⟨"vecs.rs", 24, []⟩]⟩,
  ⟨.load, ⟨.u, 8, 8⟩, none, [⟨"vecs.rs", 25, []⟩]⟩,
  ⟨.load_unchecked, ⟨.u, 8, 8⟩, none, [⟨"vecs.rs", 25, []⟩]⟩,
  ⟨.store, ⟨.u, 8, 8⟩, none, [⟨"vecs.rs", 25, []⟩]⟩,
  ⟨.store_unchecked, ⟨.u, 8, 8⟩, none, [⟨"vecs.rs", 25, []⟩]⟩,
  ⟨.coalesce, ⟨.u, 8, 8⟩, none, [⟨"vecs.rs", 25, []⟩]⟩,
  ⟨.extract, ⟨.u, 8, 8⟩, none, [⟨"vecs.rs", 25, []⟩]⟩,
  ⟨.extract_unchecked, ⟨.u, 8, 8⟩, none, [⟨"vecs.rs", 25, []⟩]⟩,
  ⟨.replace, ⟨.u, 8, 8⟩, none, [⟨"vecs.rs", 25, []⟩]⟩,
  ⟨.replace_unchecked, ⟨.u, 8, 8⟩, none, [⟨"vecs.rs", 25, []⟩]⟩,
  ⟨.splat, ⟨.u, 8, 8⟩, none, [⟨"vecs.rs", 25, []⟩]⟩,
  ⟨.default, ⟨.u, 8, 8⟩, none, [⟨"vecs.rs", 25, []⟩]⟩,
  ⟨.product, ⟨.u, 8, 8⟩, none, [⟨"vecs.rs", 25, []⟩]⟩,
  ⟨.scalar_reduce, ⟨.u, 8, 8⟩, none, [⟨"vecs.rs", 25, []⟩]⟩,
  ⟨.load, ⟨.u, 8, 4⟩, none, [⟨"vecs.rs", 26, []⟩]⟩,
  ⟨.load_unchecked, ⟨.u, 8, 4⟩, none, [⟨"vecs.rs", 26, []⟩]⟩,
  ⟨.store, ⟨.u, 8, 4⟩, none, [⟨"vecs.rs", 26, []⟩]⟩,
  ⟨.store_unchecked, ⟨.u, 8, 4⟩, none, [⟨"vecs.rs", 26, []⟩]⟩,
  ⟨.coalesce, ⟨.u, 8, 4⟩, none, [⟨"vecs.rs", 26, []⟩]⟩,
  ⟨.extract, ⟨.u, 8, 4⟩, none, [⟨"vecs.rs", 26, []⟩]⟩,
  ⟨.extract_unchecked, ⟨.u, 8, 4⟩, none, [⟨"vecs.rs", 26, []⟩]⟩,
  ⟨.replace, ⟨.u, 8, 4⟩, none, [⟨"vecs.rs", 26, []⟩]⟩,
  ⟨.replace_unchecked, ⟨.u, 8, 4⟩, none, [⟨"vecs.rs", 26, []⟩]⟩,
  ⟨.splat, ⟨.u, 8, 4⟩, none, [⟨"vecs.rs", 26, []⟩]⟩,
  ⟨.default, ⟨.u, 8, 4⟩, none, [⟨"vecs.rs", 26, []⟩]⟩,
  ⟨.product, ⟨.u, 8, 4⟩, none, [⟨"vecs.rs", 26, []⟩]⟩,
  ⟨.scalar_reduce, ⟨.u, 8, 4⟩, none, [⟨"vecs.rs", 26, []⟩]⟩,
  ⟨.load, ⟨.u, 8, 2⟩, none, [⟨"vecs.rs", 27, []⟩]⟩,
  ⟨.load_unchecked, ⟨.u, 8, 2⟩, none, [⟨"vecs.rs", 27, []⟩]⟩,
  ⟨.store, ⟨.u, 8, 2⟩, none, [⟨"vecs.rs", 27, []⟩]⟩,
  ⟨.store_unchecked, ⟨.u, 8, 2⟩, none, [⟨"vecs.rs", 27, []⟩]⟩,
  ⟨.coalesce, ⟨.u, 8, 2⟩, none, [⟨"vecs.rs", 27, []⟩]⟩,
  ⟨.extract, ⟨.u, 8, 2⟩, none, [⟨"vecs.rs", 27, []⟩]⟩,
  ⟨.extract_unchecked, ⟨.u, 8, 2⟩, none, [⟨"vecs.rs", 27, []⟩]⟩,
  ⟨.replace, ⟨.u, 8, 2⟩, none, [⟨"vecs.rs", 27, []⟩]⟩,
  ⟨.replace_unchecked, ⟨.u, 8, 2⟩, none, [⟨"vecs.rs", 27, []⟩]⟩,
  ⟨.splat, ⟨.u, 8, 2⟩, none, [⟨"vecs.rs", 27, []⟩]⟩,
  ⟨.default, ⟨.u, 8, 2⟩, none, [⟨"vecs.rs", 27, []⟩]⟩,
  ⟨.product, ⟨.u, 8, 2⟩, none, [⟨"vecs.rs", 27, []⟩]⟩,
  ⟨.scalar_reduce, ⟨.u, 8, 2⟩, none, [⟨"vecs.rs", 27, []⟩]⟩,
  ⟨.load, ⟨.i, 8, 8⟩, none, [⟨"vecs.rs", 28, []⟩]⟩,
  ⟨.load_unchecked, ⟨.i, 8, 8⟩, none, [⟨"vecs.rs", 28, []⟩]⟩,
  ⟨.store, ⟨.i, 8, 8⟩, none, [⟨"vecs.rs", 28, []⟩]⟩,
  ⟨.store_unchecked, ⟨.i, 8, 8⟩, none, [⟨"vecs.rs", 28, []⟩]⟩,
  ⟨.coalesce, ⟨.i, 8, 8⟩, none, [⟨"vecs.rs", 28, []⟩]⟩,
  ⟨.extract, ⟨.i, 8, 8⟩, none, [⟨"vecs.rs", 28, []⟩]⟩,
  ⟨.extract_unchecked, ⟨.i, 8, 8⟩, none, [⟨"vecs.rs", 28, []⟩]⟩,
  ⟨.replace, ⟨.i, 8, 8⟩, none, [⟨"vecs.rs", 28, []⟩]⟩,
  ⟨.replace_unchecked, ⟨.i, 8, 8⟩, none, [⟨"vecs.rs", 28, []⟩]⟩,
  ⟨.splat, ⟨.i, 8, 8⟩, none, [⟨"vecs.rs", 28, []⟩]⟩,
  ⟨.default, ⟨.i, 8, 8⟩, none, [⟨"vecs.rs", 28, []⟩]⟩,
  ⟨.product, ⟨.i, 8, 8⟩, none, [⟨"vecs.rs", 28, []⟩]⟩,
  ⟨.scalar_reduce, ⟨.i, 8, 8⟩, none, [⟨"vecs.rs", 28, []⟩]⟩,
  ⟨.load, ⟨.i, 8, 4⟩, none, [⟨"vecs.rs", 29, []⟩]⟩,
  ⟨.load_unchecked, ⟨.i, 8, 4⟩, none, [⟨"vecs.rs", 29, []⟩]⟩,
  ⟨.store, ⟨.i, 8, 4⟩, none, [⟨"vecs.rs", 29, []⟩]⟩,
  ⟨.store_unchecked, ⟨.i, 8, 4⟩, none, [⟨"vecs.rs", 29, []⟩]⟩,
  ⟨.coalesce, ⟨.i, 8, 4⟩, none, [⟨"vecs.rs", 29, []⟩]⟩,
  ⟨.extract, ⟨.i, 8, 4⟩, none, [⟨"vecs.rs", 29, []⟩]⟩,
  ⟨.extract_unchecked, ⟨.i, 8, 4⟩, none, [⟨"vecs.rs", 29, []⟩]⟩,
  ⟨.replace, ⟨.i, 8, 4⟩, none, [⟨"vecs.rs", 29, []⟩]⟩,
  ⟨.replace_unchecked, ⟨.i, 8, 4⟩, none, [⟨"vecs.rs", 29, []⟩]⟩,
  ⟨.splat, ⟨.i, 8, 4⟩, none, [⟨"vecs.rs", 29, []⟩]⟩,
  ⟨.default, ⟨.i, 8, 4⟩, none, [⟨"vecs.rs", 29, []⟩]⟩,
  ⟨.product, ⟨.i, 8, 4⟩, none, [⟨"vecs.rs", 29, []⟩]⟩,
  ⟨.scalar_reduce, ⟨.i, 8, 4⟩, none, [⟨"vecs.rs", 29, []⟩]⟩,
  ⟨.load, ⟨.i, 8, 2⟩, none, [⟨"vecs.rs", 30, []⟩]⟩,
  ⟨.load_unchecked, ⟨.i, 8, 2⟩, none, [⟨"vecs.rs", 30, []⟩]⟩,
  ⟨.store, ⟨.i, 8, 2⟩, none, [⟨"vecs.rs", 30, []⟩]⟩,
  ⟨.store_unchecked, ⟨.i, 8, 2⟩, none, [⟨"vecs.rs", 30, []⟩]⟩,
  ⟨.coalesce, ⟨.i, 8, 2⟩, none, [⟨"vecs.rs", 30, []⟩]⟩,
  ⟨.extract, ⟨.i, 8, 2⟩, none, [⟨"vecs.rs", 30, []⟩]⟩,
  ⟨.extract_unchecked, ⟨.i, 8, 2⟩, none, [⟨"vecs.rs", 30, []⟩]⟩,
  ⟨.replace, ⟨.i, 8, 2⟩, none, [⟨"vecs.rs", 30, []⟩]⟩,
  ⟨.replace_unchecked, ⟨.i, 8, 2⟩, none, [⟨"vecs.rs", 30, []⟩]⟩,
  ⟨.splat, ⟨.i, 8, 2⟩, none, [⟨"vecs.rs", 30, []⟩]⟩,
  ⟨.default, ⟨.i, 8, 2⟩, none, [⟨"vecs.rs", 30, []⟩]⟩,
  ⟨.product, ⟨.i, 8, 2⟩, none, [⟨"vecs.rs", 30, []⟩]⟩,
  ⟨.scalar_reduce, ⟨.i, 8, 2⟩, none, [⟨"vecs.rs", 30, []⟩]⟩,
  ⟨.load, ⟨.f, 8, 8⟩, none, [⟨"vecs.rs", 31, []⟩]⟩,
  ⟨.load_unchecked, ⟨.f, 8, 8⟩, none, [⟨"vecs.rs", 31, []⟩]⟩,
  ⟨.store, ⟨.f, 8, 8⟩, none, [⟨"vecs.rs", 31, []⟩]⟩,
  ⟨.store_unchecked, ⟨.f, 8, 8⟩, none, [⟨"vecs.rs", 31, []⟩]⟩,
  ⟨.coalesce, ⟨.f, 8, 8⟩, none, [⟨"vecs.rs", 31, []⟩]⟩,
  ⟨.extract, ⟨.f, 8, 8⟩, none, [⟨"vecs.rs", 31, []⟩]⟩,
  ⟨.extract_unchecked, ⟨.f, 8, 8⟩, none, [⟨"vecs.rs", 31, []⟩]⟩,
  ⟨.replace, ⟨.f, 8, 8⟩, none, [⟨"vecs.rs", 31, []⟩]⟩,
  ⟨.replace_unchecked, ⟨.f, 8, 8⟩, none, [⟨"vecs.rs", 31, []⟩]⟩,
  ⟨.splat, ⟨.f, 8, 8⟩, none, [⟨"vecs.rs", 31, []⟩]⟩,
  ⟨.default, ⟨.f, 8, 8⟩, none, [⟨"vecs.rs", 31, []⟩]⟩,
  ⟨.product, ⟨.f, 8, 8⟩, none, [⟨"vecs.rs", 31, []⟩]⟩,
  ⟨.scalar_reduce, ⟨.f, 8, 8⟩, none, [⟨"vecs.rs", 31, []⟩]⟩,
  ⟨.load, ⟨.f, 8, 4⟩, none, [⟨"vecs.rs", 32, []⟩]⟩,
  ⟨.load_unchecked, ⟨.f, 8, 4⟩, none, [⟨"vecs.rs", 32, []⟩]⟩,
  ⟨.store, ⟨.f, 8, 4⟩, none, [⟨"vecs.rs", 32, []⟩]⟩,
  ⟨.store_unchecked, ⟨.f, 8, 4⟩, none, [⟨"vecs.rs", 32, []⟩]⟩,
  ⟨.coalesce, ⟨.f, 8, 4⟩, none, [⟨"vecs.rs", 32, []⟩]⟩,
  ⟨.extract, ⟨.f, 8, 4⟩, none, [⟨"vecs.rs", 32, []⟩]⟩,
  ⟨.extract_unchecked, ⟨.f, 8, 4⟩, none, [⟨"vecs.rs", 32, []⟩]⟩,
  ⟨.replace, ⟨.f, 8, 4⟩, none, [⟨"vecs.rs", 32, []⟩]⟩,
  ⟨.replace_unchecked, ⟨.f, 8, 4⟩, none, [⟨"vecs.rs", 32, []⟩]⟩,
  ⟨.splat, ⟨.f, 8, 4⟩, none, [⟨"vecs.rs", 32, []⟩]⟩,
  ⟨.default, ⟨.f, 8, 4⟩, none, [⟨"vecs.rs", 32, []⟩]⟩,
  ⟨.product, ⟨.f, 8, 4⟩, none, [⟨"vecs.rs", 32, []⟩]⟩,
  ⟨.scalar_reduce, ⟨.f, 8, 4⟩, none, [⟨"vecs.rs", 32, []⟩]⟩,
  ⟨.load, ⟨.f, 8, 2⟩, none, [⟨"vecs.rs", 33, []⟩]⟩,
  ⟨.load_unchecked, ⟨.f, 8, 2⟩, none, [⟨"vecs.rs", 33, []⟩]⟩,
  ⟨.store, ⟨.f, 8, 2⟩, none, [⟨"vecs.rs", 33, []⟩]⟩,
  ⟨.store_unchecked, ⟨.f, 8, 2⟩, none, [⟨"vecs.rs", 33, []⟩]⟩,
  ⟨.coalesce, ⟨.f, 8, 2⟩, none, [⟨"vecs.rs", 33, []⟩]⟩,
  ⟨.extract, ⟨.f, 8, 2⟩, none, [⟨"vecs.rs", 33, []⟩]⟩,
  ⟨.extract_unchecked, ⟨.f, 8, 2⟩, none, [⟨"vecs.rs", 33, []⟩]⟩,
  ⟨.replace, ⟨.f, 8, 2⟩, none, [⟨"vecs.rs", 33, []⟩]⟩,
  ⟨.replace_unchecked, ⟨.f, 8, 2⟩, none, [⟨"vecs.rs", 33, []⟩]⟩,
  ⟨.splat, ⟨.f, 8, 2⟩, none, [⟨"vecs.rs", 33, []⟩]⟩,
  ⟨.default, ⟨.f, 8, 2⟩, none, [⟨"vecs.rs", 33, []⟩]⟩,
  ⟨.product, ⟨.f, 8, 2⟩, none, [⟨"vecs.rs", 33, []⟩]⟩,
  ⟨.scalar_reduce, ⟨.f, 8, 2⟩, none, [⟨"vecs.rs", 33, []⟩]⟩
]

/-- Methods of vector types under src/arch/unknown. -/
def implRowsUnknown : List ImplRow := [
  ⟨.abs, ⟨.f, 4, 4⟩, none, [⟨"intrin/abs.rs", 16, []⟩]⟩,
  ⟨.abs, ⟨.f, 8, 2⟩, none, [⟨"intrin/abs.rs", 28, []⟩]⟩,
  ⟨.abs, ⟨.f, 4, 8⟩, none, [⟨"intrin/abs.rs", 38, []⟩]⟩,
  ⟨.abs, ⟨.f, 8, 4⟩, none, [⟨"intrin/abs.rs", 54, []⟩]⟩,
  ⟨.abs, ⟨.i, 1, 16⟩, none, [⟨"intrin/abs.rs", 66, []⟩]⟩,
  ⟨.abs, ⟨.i, 2, 8⟩, none, [⟨"intrin/abs.rs", 90, []⟩]⟩,
  ⟨.abs, ⟨.i, 4, 4⟩, none, [⟨"intrin/abs.rs", 106, []⟩]⟩,
  ⟨.abs, ⟨.i, 1, 32⟩, none, [⟨"intrin/abs.rs", 118, []⟩]⟩,
  ⟨.abs, ⟨.i, 2, 16⟩, none, [⟨"intrin/abs.rs", 158, []⟩]⟩,
  ⟨.abs, ⟨.i, 4, 8⟩, none, [⟨"intrin/abs.rs", 182, []⟩]⟩,
  ⟨.abs, ⟨.i, 8, 2⟩, none, [⟨"intrin/abs.rs", 198, []⟩]⟩,
  ⟨.abs, ⟨.i, 8, 4⟩, none, [⟨"intrin/abs.rs", 208, []⟩]⟩,
  ⟨.abs, ⟨.i, 8, 8⟩, none, [⟨"intrin/abs.rs", 220, []⟩]⟩,
  ⟨.min, ⟨.u, 1, 16⟩, none, [⟨"intrin/cmp.rs", 12, [("__undefined", true)]⟩, ⟨"intrin/cmp.rs", 12, [("__undefined", false)]⟩]⟩,
  ⟨.max, ⟨.u, 1, 16⟩, none, [⟨"intrin/cmp.rs", 12, [("__undefined", true)]⟩, ⟨"intrin/cmp.rs", 12, [("__undefined", false)]⟩]⟩,
  ⟨.min, ⟨.i, 1, 16⟩, none, [⟨"intrin/cmp.rs", 19, [("__undefined", true)]⟩, ⟨"intrin/cmp.rs", 19, [("__undefined", false)]⟩]⟩,
  ⟨.max, ⟨.i, 1, 16⟩, none, [⟨"intrin/cmp.rs", 19, [("__undefined", true)]⟩, ⟨"intrin/cmp.rs", 19, [("__undefined", false)]⟩]⟩,
  ⟨.min, ⟨.u, 2, 8⟩, none, [⟨"intrin/cmp.rs", 26, [("__undefined", true)]⟩, ⟨"intrin/cmp.rs", 26, [("__undefined", false)]⟩]⟩,
  ⟨.max, ⟨.u, 2, 8⟩, none, [⟨"intrin/cmp.rs", 26, [("__undefined", true)]⟩, ⟨"intrin/cmp.rs", 26, [("__undefined", false)]⟩]⟩,
  ⟨.min, ⟨.i, 2, 8⟩, none, [⟨"intrin/cmp.rs", 33, [("__undefined", true)]⟩, ⟨"intrin/cmp.rs", 33, [("__undefined", false)]⟩]⟩,
  ⟨.max, ⟨.i, 2, 8⟩, none, [⟨"intrin/cmp.rs", 33, [("__undefined", true)]⟩, ⟨"intrin/cmp.rs", 33, [("__undefined", false)]⟩]⟩,
  ⟨.min, ⟨.u, 4, 4⟩, none, [⟨"intrin/cmp.rs", 40, [("__undefined", true)]⟩, ⟨"intrin/cmp.rs", 40, [("__undefined", false)]⟩]⟩,
  ⟨.max, ⟨.u, 4, 4⟩, none, [⟨"intrin/cmp.rs", 40, [("__undefined", true)]⟩, ⟨"intrin/cmp.rs", 40, [("__undefined", false)]⟩]⟩,
  ⟨.min, ⟨.i, 4, 4⟩, none, [⟨"intrin/cmp.rs", 47, [("__undefined", true)]⟩, ⟨"intrin/cmp.rs", 47, [("__undefined", false)]⟩]⟩,
  ⟨.max, ⟨.i, 4, 4⟩, none, [⟨"intrin/cmp.rs", 47, [("__undefined", true)]⟩, ⟨"intrin/cmp.rs", 47, [("__undefined", false)]⟩]⟩,
  ⟨.min, ⟨.f, 4, 4⟩, none, [⟨"intrin/cmp.rs", 54, [("__undefined", true)]⟩, ⟨"intrin/cmp.rs", 54, [("__undefined", false)]⟩]⟩,
  ⟨.max, ⟨.f, 4, 4⟩, none, [⟨"intrin/cmp.rs", 54, [("__undefined", true)]⟩, ⟨"intrin/cmp.rs", 54, [("__undefined", false)]⟩]⟩,
  ⟨.min, ⟨.f, 8, 2⟩, none, [⟨"intrin/cmp.rs", 61, [("__undefined", true)]⟩, ⟨"intrin/cmp.rs", 61, [("__undefined", false)]⟩]⟩,
  ⟨.max, ⟨.f, 8, 2⟩, none, [⟨"intrin/cmp.rs", 61, [("__undefined", true)]⟩, ⟨"intrin/cmp.rs", 61, [("__undefined", false)]⟩]⟩,
  ⟨.min, ⟨.u, 1, 32⟩, none, [⟨"intrin/cmp.rs", 68, [("__undefined", true)]⟩, ⟨"intrin/cmp.rs", 68, [("__undefined", false)]⟩]⟩,
  ⟨.max, ⟨.u, 1, 32⟩, none, [⟨"intrin/cmp.rs", 68, [("__undefined", true)]⟩, ⟨"intrin/cmp.rs", 68, [("__undefined", false)]⟩]⟩,
  ⟨.min, ⟨.i, 1, 32⟩, none, [⟨"intrin/cmp.rs", 77, [("__undefined", true)]⟩, ⟨"intrin/cmp.rs", 77, [("__undefined", false)]⟩]⟩,
  ⟨.max, ⟨.i, 1, 32⟩, none, [⟨"intrin/cmp.rs", 77, [("__undefined", true)]⟩, ⟨"intrin/cmp.rs", 77, [("__undefined", false)]⟩]⟩,
  ⟨.min, ⟨.u, 2, 16⟩, none, [⟨"intrin/cmp.rs", 86, [("__undefined", true)]⟩, ⟨"intrin/cmp.rs", 86, [("__undefined", false)]⟩]⟩,
  ⟨.max, ⟨.u, 2, 16⟩, none, [⟨"intrin/cmp.rs", 86, [("__undefined", true)]⟩, ⟨"intrin/cmp.rs", 86, [("__undefined", false)]⟩]⟩,
  ⟨.min, ⟨.i, 2, 16⟩, none, [⟨"intrin/cmp.rs", 93, [("__undefined", true)]⟩, ⟨"intrin/cmp.rs", 93, [("__undefined", false)]⟩]⟩,
  ⟨.max, ⟨.i, 2, 16⟩, none, [⟨"intrin/cmp.rs", 93, [("__undefined", true)]⟩, ⟨"intrin/cmp.rs", 93, [("__undefined", false)]⟩]⟩,
  ⟨.min, ⟨.u, 4, 8⟩, none, [⟨"intrin/cmp.rs", 100, [("__undefined", true)]⟩, ⟨"intrin/cmp.rs", 100, [("__undefined", false)]⟩]⟩,
  ⟨.max, ⟨.u, 4, 8⟩, none, [⟨"intrin/cmp.rs", 100, [("__undefined", true)]⟩, ⟨"intrin/cmp.rs", 100, [("__undefined", false)]⟩]⟩,
  ⟨.min, ⟨.i, 4, 8⟩, none, [⟨"intrin/cmp.rs", 107, [("__undefined", true)]⟩, ⟨"intrin/cmp.rs", 107, [("__undefined", false)]⟩]⟩,
  ⟨.max, ⟨.i, 4, 8⟩, none, [⟨"intrin/cmp.rs", 107, [("__undefined", true)]⟩, ⟨"intrin/cmp.rs", 107, [("__undefined", false)]⟩]⟩,
  ⟨.min, ⟨.f, 4, 8⟩, none, [⟨"intrin/cmp.rs", 114, [("__undefined", true)]⟩, ⟨"intrin/cmp.rs", 114, [("__undefined", false)]⟩]⟩,
  ⟨.max, ⟨.f, 4, 8⟩, none, [⟨"intrin/cmp.rs", 114, [("__undefined", true)]⟩, ⟨"intrin/cmp.rs", 114, [("__undefined", false)]⟩]⟩,
  ⟨.min, ⟨.f, 8, 4⟩, none, [⟨"intrin/cmp.rs", 121, [("__undefined", true)]⟩, ⟨"intrin/cmp.rs", 121, [("__undefined", false)]⟩]⟩,
  ⟨.max, ⟨.f, 8, 4⟩, none, [⟨"intrin/cmp.rs", 121, [("__undefined", true)]⟩, ⟨"intrin/cmp.rs", 121, [("__undefined", false)]⟩]⟩,
  ⟨.destride_two, ⟨.u, 1, 16⟩, none, [⟨"intrin/destride.rs", 13, []⟩]⟩,
  ⟨.destride_four, ⟨.u, 1, 16⟩, none, [⟨"intrin/destride.rs", 18, []⟩]⟩,
  ⟨.destride_two, ⟨.u, 1, 32⟩, none, [⟨"intrin/destride.rs", 25, []⟩]⟩,
  ⟨.destride_four, ⟨.u, 1, 32⟩, none, [⟨"intrin/destride.rs", 30, []⟩]⟩,
  ⟨.destride_two, ⟨.i, 1, 16⟩, none, [⟨"intrin/destride.rs", 37, []⟩]⟩,
  ⟨.destride_four, ⟨.i, 1, 16⟩, none, [⟨"intrin/destride.rs", 42, []⟩]⟩,
  ⟨.destride_two, ⟨.i, 1, 32⟩, none, [⟨"intrin/destride.rs", 49, []⟩]⟩,
  ⟨.destride_four, ⟨.i, 1, 32⟩, none, [⟨"intrin/destride.rs", 54, []⟩]⟩,
  ⟨.destride_two, ⟨.u, 2, 16⟩, none, [⟨"intrin/destride.rs", 75, []⟩]⟩,
  ⟨.destride_four, ⟨.u, 2, 16⟩, none, [⟨"intrin/destride.rs", 75, []⟩]⟩,
  ⟨.destride_two, ⟨.u, 2, 8⟩, none, [⟨"intrin/destride.rs", 76, []⟩]⟩,
  ⟨.destride_four, ⟨.u, 2, 8⟩, none, [⟨"intrin/destride.rs", 76, []⟩]⟩,
  ⟨.destride_two, ⟨.i, 2, 16⟩, none, [⟨"intrin/destride.rs", 77, []⟩]⟩,
  ⟨.destride_four, ⟨.i, 2, 16⟩, none, [⟨"intrin/destride.rs", 77, []⟩]⟩,
  ⟨.destride_two, ⟨.i, 2, 8⟩, none, [⟨"intrin/destride.rs", 78, []⟩]⟩,
  ⟨.destride_four, ⟨.i, 2, 8⟩, none, [⟨"intrin/destride.rs", 78, []⟩]⟩,
  ⟨.destride_two, ⟨.u, 4, 8⟩, none, [⟨"intrin/destride.rs", 80, []⟩]⟩,
  ⟨.destride_four, ⟨.u, 4, 8⟩, none, [⟨"intrin/destride.rs", 80, []⟩]⟩,
  ⟨.destride_two, ⟨.u, 4, 4⟩, none, [⟨"intrin/destride.rs", 81, []⟩]⟩,
  ⟨.destride_four, ⟨.u, 4, 4⟩, none, [⟨"intrin/destride.rs", 81, []⟩]⟩,
  ⟨.destride_two, ⟨.i, 4, 8⟩, none, [⟨"intrin/destride.rs", 82, []⟩]⟩,
  ⟨.destride_four, ⟨.i, 4, 8⟩, none, [⟨"intrin/destride.rs", 82, []⟩]⟩,
  ⟨.destride_two, ⟨.i, 4, 4⟩, none, [⟨"intrin/destride.rs", 83, []⟩]⟩,
  ⟨.destride_four, ⟨.i, 4, 4⟩, none, [⟨"intrin/destride.rs", 83, []⟩]⟩,
  ⟨.saturating_downcast, ⟨.i, 4, 4⟩, some ⟨.i, 2, 8⟩, [⟨"intrin/downcast.rs", 13, []⟩]⟩,
  ⟨.saturating_downcast, ⟨.i, 8, 2⟩, some ⟨.i, 4, 4⟩, [⟨"intrin/downcast.rs", 27, []⟩]⟩,
  ⟨.saturating_downcast, ⟨.u, 8, 2⟩, some ⟨.u, 4, 4⟩, [⟨"intrin/downcast.rs", 37, []⟩]⟩,
  ⟨.saturating_downcast, ⟨.f, 8, 2⟩, some ⟨.f, 4, 4⟩, [⟨"intrin/downcast.rs", 47, []⟩]⟩,
  ⟨.saturating_downcast, ⟨.i, 2, 8⟩, some ⟨.i, 1, 16⟩, [⟨"intrin/downcast.rs", 57, []⟩]⟩,
  ⟨.saturating_downcast, ⟨.u, 4, 4⟩, some ⟨.u, 2, 8⟩, [⟨"intrin/downcast.rs", 79, []⟩]⟩,
  ⟨.saturating_downcast, ⟨.u, 2, 8⟩, some ⟨.u, 1, 16⟩, [⟨"intrin/downcast.rs", 93, []⟩]⟩,
  ⟨.saturating_downcast, ⟨.i, 4, 8⟩, some ⟨.i, 2, 16⟩, [⟨"intrin/downcast.rs", 115, []⟩]⟩,
  ⟨.saturating_downcast, ⟨.i, 2, 16⟩, some ⟨.i, 1, 32⟩, [⟨"intrin/downcast.rs", 137, []⟩]⟩,
  ⟨.saturating_downcast, ⟨.u, 4, 8⟩, some ⟨.u, 2, 16⟩, [⟨"intrin/downcast.rs", 175, []⟩]⟩,
  ⟨.saturating_downcast, ⟨.u, 2, 16⟩, some ⟨.u, 1, 32⟩, [⟨"intrin/downcast.rs", 197, []⟩]⟩,
  ⟨.saturating_downcast, ⟨.i, 8, 4⟩, some ⟨.i, 4, 8⟩, [⟨"intrin/downcast.rs", 235, []⟩]⟩,
  ⟨.saturating_downcast, ⟨.u, 8, 4⟩, some ⟨.u, 4, 8⟩, [⟨"intrin/downcast.rs", 249, []⟩]⟩,
  ⟨.saturating_downcast, ⟨.f, 8, 4⟩, some ⟨.f, 4, 8⟩, [⟨"intrin/downcast.rs", 263, []⟩]⟩,
  ⟨.swap_bytes, ⟨.u, 1, 16⟩, none, [⟨"intrin/endian.rs", 12, [("__undefined", true)]⟩, ⟨"intrin/endian.rs", 12, [("__undefined", false)]⟩]⟩,
  ⟨.swap_bytes, ⟨.i, 1, 16⟩, none, [⟨"intrin/endian.rs", 15, [("__undefined", true)]⟩, ⟨"intrin/endian.rs", 15, [("__undefined", false)]⟩]⟩,
  ⟨.swap_bytes, ⟨.u, 2, 8⟩, none, [⟨"intrin/endian.rs", 18, [("__undefined", true)]⟩, ⟨"intrin/endian.rs", 18, [("__undefined", false)]⟩]⟩,
  ⟨.swap_bytes, ⟨.i, 2, 8⟩, none, [⟨"intrin/endian.rs", 21, [("__undefined", true)]⟩, ⟨"intrin/endian.rs", 21, [("__undefined", false)]⟩]⟩,
  ⟨.swap_bytes, ⟨.u, 4, 4⟩, none, [⟨"intrin/endian.rs", 24, [("__undefined", true)]⟩, ⟨"intrin/endian.rs", 24, [("__undefined", false)]⟩]⟩,
  ⟨.swap_bytes, ⟨.i, 4, 4⟩, none, [⟨"intrin/endian.rs", 27, [("__undefined", true)]⟩, ⟨"intrin/endian.rs", 27, [("__undefined", false)]⟩]⟩,
  ⟨.swap_bytes, ⟨.u, 8, 2⟩, none, [⟨"intrin/endian.rs", 30, [("__undefined", true)]⟩, ⟨"intrin/endian.rs", 30, [("__undefined", false)]⟩]⟩,
  ⟨.swap_bytes, ⟨.i, 8, 2⟩, none, [⟨"intrin/endian.rs", 33, [("__undefined", true)]⟩, ⟨"intrin/endian.rs", 33, [("__undefined", false)]⟩]⟩,
  ⟨.eq_mask, ⟨.u, 1, 16⟩, none, [⟨"intrin/eq.rs", 12, [("__undefined", true)]⟩, ⟨"intrin/eq.rs", 12, [("__undefined", false)]⟩]⟩,
  ⟨.eq_mask, ⟨.i, 1, 16⟩, none, [⟨"intrin/eq.rs", 18, [("__undefined", true)]⟩, ⟨"intrin/eq.rs", 18, [("__undefined", false)]⟩]⟩,
  ⟨.eq_mask, ⟨.u, 2, 8⟩, none, [⟨"intrin/eq.rs", 24, [("__undefined", true)]⟩, ⟨"intrin/eq.rs", 24, [("__undefined", false)]⟩]⟩,
  ⟨.eq_mask, ⟨.i, 2, 8⟩, none, [⟨"intrin/eq.rs", 30, [("__undefined", true)]⟩, ⟨"intrin/eq.rs", 30, [("__undefined", false)]⟩]⟩,
  ⟨.eq_mask, ⟨.u, 4, 4⟩, none, [⟨"intrin/eq.rs", 36, [("__undefined", true)]⟩, ⟨"intrin/eq.rs", 36, [("__undefined", false)]⟩]⟩,
  ⟨.eq_mask, ⟨.i, 4, 4⟩, none, [⟨"intrin/eq.rs", 42, [("__undefined", true)]⟩, ⟨"intrin/eq.rs", 42, [("__undefined", false)]⟩]⟩,
  ⟨.eq_mask, ⟨.f, 4, 4⟩, none, [⟨"intrin/eq.rs", 48, [("__undefined", true)]⟩, ⟨"intrin/eq.rs", 48, [("__undefined", false)]⟩]⟩,
  ⟨.eq_mask, ⟨.f, 8, 2⟩, none, [⟨"intrin/eq.rs", 54, [("__undefined", true)]⟩, ⟨"intrin/eq.rs", 54, [("__undefined", false)]⟩]⟩,
  ⟨.eq_mask, ⟨.u, 8, 2⟩, none, [⟨"intrin/eq.rs", 60, [("__undefined", true)]⟩, ⟨"intrin/eq.rs", 60, [("__undefined", false)]⟩]⟩,
  ⟨.eq_mask, ⟨.i, 8, 2⟩, none, [⟨"intrin/eq.rs", 66, [("__undefined", true)]⟩, ⟨"intrin/eq.rs", 66, [("__undefined", false)]⟩]⟩,
  ⟨.hadd, ⟨.u, 8, 2⟩, none, [⟨"intrin/hadd.rs", 13, []⟩]⟩,
  ⟨.hadd, ⟨.u, 4, 4⟩, none, [⟨"intrin/hadd.rs", 14, []⟩]⟩,
  ⟨.hadd, ⟨.u, 2, 8⟩, none, [⟨"intrin/hadd.rs", 15, []⟩]⟩,
  ⟨.hadd, ⟨.u, 1, 16⟩, none, [⟨"intrin/hadd.rs", 16, []⟩]⟩,
  ⟨.hadd, ⟨.i, 8, 2⟩, none, [⟨"intrin/hadd.rs", 17, []⟩]⟩,
  ⟨.hadd, ⟨.i, 4, 4⟩, none, [⟨"intrin/hadd.rs", 18, []⟩]⟩,
  ⟨.hadd, ⟨.i, 2, 8⟩, none, [⟨"intrin/hadd.rs", 19, []⟩]⟩,
  ⟨.hadd, ⟨.i, 1, 16⟩, none, [⟨"intrin/hadd.rs", 20, []⟩]⟩,
  ⟨.hadd, ⟨.f, 8, 2⟩, none, [⟨"intrin/hadd.rs", 21, []⟩]⟩,
  ⟨.hadd, ⟨.f, 4, 4⟩, none, [⟨"intrin/hadd.rs", 22, []⟩]⟩,
  ⟨.hsub, ⟨.u, 8, 2⟩, none, [⟨"intrin/hsub.rs", 13, []⟩]⟩,
  ⟨.hsub, ⟨.u, 4, 4⟩, none, [⟨"intrin/hsub.rs", 14, []⟩]⟩,
  ⟨.hsub, ⟨.u, 2, 8⟩, none, [⟨"intrin/hsub.rs", 15, []⟩]⟩,
  ⟨.hsub, ⟨.u, 1, 16⟩, none, [⟨"intrin/hsub.rs", 16, []⟩]⟩,
  ⟨.hsub, ⟨.i, 8, 2⟩, none, [⟨"intrin/hsub.rs", 17, []⟩]⟩,
  ⟨.hsub, ⟨.i, 4, 4⟩, none, [⟨"intrin/hsub.rs", 18, []⟩]⟩,
  ⟨.hsub, ⟨.i, 2, 8⟩, none, [⟨"intrin/hsub.rs", 19, []⟩]⟩,
  ⟨.hsub, ⟨.i, 1, 16⟩, none, [⟨"intrin/hsub.rs", 20, []⟩]⟩,
  ⟨.hsub, ⟨.f, 8, 2⟩, none, [⟨"intrin/hsub.rs", 21, []⟩]⟩,
  ⟨.hsub, ⟨.f, 4, 4⟩, none, [⟨"intrin/hsub.rs", 22, []⟩]⟩,
  ⟨.merge_halves, ⟨.u, 1, 16⟩, none, [⟨"intrin/merge.rs", 13, [("__undefined", true)]⟩, ⟨"intrin/merge.rs", 13, [("__undefined", false)]⟩]⟩,
  ⟨.merge_interleaved, ⟨.u, 1, 16⟩, none, [⟨"intrin/merge.rs", 13, [("__undefined", true)]⟩, ⟨"intrin/merge.rs", 13, [("__undefined", false)]⟩]⟩,
  ⟨.merge_partitioned, ⟨.u, 1, 16⟩, none, [⟨"intrin/merge.rs", 13, [("__undefined", true)]⟩, ⟨"intrin/merge.rs", 13, [("__undefined", false)]⟩]⟩,
  ⟨.merge_halves, ⟨.u, 2, 8⟩, none, [⟨"intrin/merge.rs", 14, [("__undefined", true)]⟩, ⟨"intrin/merge.rs", 14, [("__undefined", false)]⟩]⟩,
  ⟨.merge_interleaved, ⟨.u, 2, 8⟩, none, [⟨"intrin/merge.rs", 14, [("__undefined", true)]⟩, ⟨"intrin/merge.rs", 14, [("__undefined", false)]⟩]⟩,
  ⟨.merge_partitioned, ⟨.u, 2, 8⟩, none, [⟨"intrin/merge.rs", 14, [("__undefined", true)]⟩, ⟨"intrin/merge.rs", 14, [("__undefined", false)]⟩]⟩,
  ⟨.merge_halves, ⟨.u, 4, 4⟩, none, [⟨"intrin/merge.rs", 15, [("__undefined", true)]⟩, ⟨"intrin/merge.rs", 15, [("__undefined", false)]⟩]⟩,
  ⟨.merge_interleaved, ⟨.u, 4, 4⟩, none, [⟨"intrin/merge.rs", 15, [("__undefined", true)]⟩, ⟨"intrin/merge.rs", 15, [("__undefined", false)]⟩]⟩,
  ⟨.merge_partitioned, ⟨.u, 4, 4⟩, none, [⟨"intrin/merge.rs", 15, [("__undefined", true)]⟩, ⟨"intrin/merge.rs", 15, [("__undefined", false)]⟩]⟩,
  ⟨.merge_halves, ⟨.u, 8, 2⟩, none, [⟨"intrin/merge.rs", 16, [("__undefined", true)]⟩, ⟨"intrin/merge.rs", 16, [("__undefined", false)]⟩]⟩,
  ⟨.merge_interleaved, ⟨.u, 8, 2⟩, none, [⟨"intrin/merge.rs", 16, [("__undefined", true)]⟩, ⟨"intrin/merge.rs", 16, [("__undefined", false)]⟩]⟩,
  ⟨.merge_partitioned, ⟨.u, 8, 2⟩, none, [⟨"intrin/merge.rs", 16, [("__undefined", true)]⟩, ⟨"intrin/merge.rs", 16, [("__undefined", false)]⟩]⟩,
  ⟨.merge_halves, ⟨.i, 1, 16⟩, none, [⟨"intrin/merge.rs", 17, [("__undefined", true)]⟩, ⟨"intrin/merge.rs", 17, [("__undefined", false)]⟩]⟩,
  ⟨.merge_interleaved, ⟨.i, 1, 16⟩, none, [⟨"intrin/merge.rs", 17, [("__undefined", true)]⟩, ⟨"intrin/merge.rs", 17, [("__undefined", false)]⟩]⟩,
  ⟨.merge_partitioned, ⟨.i, 1, 16⟩, none, [⟨"intrin/merge.rs", 17, [("__undefined", true)]⟩, ⟨"intrin/merge.rs", 17, [("__undefined", false)]⟩]⟩,
  ⟨.merge_halves, ⟨.i, 2, 8⟩, none, [⟨"intrin/merge.rs", 18, [("__undefined", true)]⟩, ⟨"intrin/merge.rs", 18, [("__undefined", false)]⟩]⟩,
  ⟨.merge_interleaved, ⟨.i, 2, 8⟩, none, [⟨"intrin/merge.rs", 18, [("__undefined", true)]⟩, ⟨"intrin/merge.rs", 18, [("__undefined", false)]⟩]⟩,
  ⟨.merge_partitioned, ⟨.i, 2, 8⟩, none, [⟨"intrin/merge.rs", 18, [("__undefined", true)]⟩, ⟨"intrin/merge.rs", 18, [("__undefined", false)]⟩]⟩,
  ⟨.merge_halves, ⟨.i, 4, 4⟩, none, [⟨"intrin/merge.rs", 19, [("__undefined", true)]⟩, ⟨"intrin/merge.rs", 19, [("__undefined", false)]⟩]⟩,
  ⟨.merge_interleaved, ⟨.i, 4, 4⟩, none, [⟨"intrin/merge.rs", 19, [("__undefined", true)]⟩, ⟨"intrin/merge.rs", 19, [("__undefined", false)]⟩]⟩,
  ⟨.merge_partitioned, ⟨.i, 4, 4⟩, none, [⟨"intrin/merge.rs", 19, [("__undefined", true)]⟩, ⟨"intrin/merge.rs", 19, [("__undefined", false)]⟩]⟩,
  ⟨.merge_halves, ⟨.i, 8, 2⟩, none, [⟨"intrin/merge.rs", 20, [("__undefined", true)]⟩, ⟨"intrin/merge.rs", 20, [("__undefined", false)]⟩]⟩,
  ⟨.merge_interleaved, ⟨.i, 8, 2⟩, none, [⟨"intrin/merge.rs", 20, [("__undefined", true)]⟩, ⟨"intrin/merge.rs", 20, [("__undefined", false)]⟩]⟩,
  ⟨.merge_partitioned, ⟨.i, 8, 2⟩, none, [⟨"intrin/merge.rs", 20, [("__undefined", true)]⟩, ⟨"intrin/merge.rs", 20, [("__undefined", false)]⟩]⟩,
  ⟨.merge_halves, ⟨.f, 4, 4⟩, none, [⟨"intrin/merge.rs", 21, [("__undefined", true)]⟩, ⟨"intrin/merge.rs", 21, [("__undefined", false)]⟩]⟩,
  ⟨.merge_interleaved, ⟨.f, 4, 4⟩, none, [⟨"intrin/merge.rs", 21, [("__undefined", true)]⟩, ⟨"intrin/merge.rs", 21, [("__undefined", false)]⟩]⟩,
  ⟨.merge_partitioned, ⟨.f, 4, 4⟩, none, [⟨"intrin/merge.rs", 21, [("__undefined", true)]⟩, ⟨"intrin/merge.rs", 21, [("__undefined", false)]⟩]⟩,
  ⟨.merge_halves, ⟨.f, 8, 2⟩, none, [⟨"intrin/merge.rs", 22, [("__undefined", true)]⟩, ⟨"intrin/merge.rs", 22, [("__undefined", false)]⟩]⟩,
  ⟨.merge_interleaved, ⟨.f, 8, 2⟩, none, [⟨"intrin/merge.rs", 22, [("__undefined", true)]⟩, ⟨"intrin/merge.rs", 22, [("__undefined", false)]⟩]⟩,
  ⟨.merge_partitioned, ⟨.f, 8, 2⟩, none, [⟨"intrin/merge.rs", 22, [("__undefined", true)]⟩, ⟨"intrin/merge.rs", 22, [("__undefined", false)]⟩]⟩,
  ⟨.recip, ⟨.f, 4, 4⟩, none, [⟨"intrin/recip.rs", 12, [("__undefined", true)]⟩, ⟨"intrin/recip.rs", 12, [("__undefined", false)]⟩]⟩,
  ⟨.round, ⟨.f, 4, 4⟩, none, [⟨"intrin/round.rs", 12, [("__undefined", true)]⟩, ⟨"intrin/round.rs", 12, [("__undefined", false)]⟩]⟩,
  ⟨.ceil, ⟨.f, 4, 4⟩, none, [⟨"intrin/round.rs", 12, [("__undefined", true)]⟩, ⟨"intrin/round.rs", 12, [("__undefined", false)]⟩]⟩,
  ⟨.floor, ⟨.f, 4, 4⟩, none, [⟨"intrin/round.rs", 12, [("__undefined", true)]⟩, ⟨"intrin/round.rs", 12, [("__undefined", false)]⟩]⟩,
  ⟨.trunc, ⟨.f, 4, 4⟩, none, [⟨"intrin/round.rs", 12, [("__undefined", true)]⟩, ⟨"intrin/round.rs", 12, [("__undefined", false)]⟩]⟩,
  ⟨.round, ⟨.f, 8, 2⟩, none, [⟨"intrin/round.rs", 21, [("__undefined", true)]⟩, ⟨"intrin/round.rs", 21, [("__undefined", false)]⟩]⟩,
  ⟨.ceil, ⟨.f, 8, 2⟩, none, [⟨"intrin/round.rs", 21, [("__undefined", true)]⟩, ⟨"intrin/round.rs", 21, [("__undefined", false)]⟩]⟩,
  ⟨.floor, ⟨.f, 8, 2⟩, none, [⟨"intrin/round.rs", 21, [("__undefined", true)]⟩, ⟨"intrin/round.rs", 21, [("__undefined", false)]⟩]⟩,
  ⟨.trunc, ⟨.f, 8, 2⟩, none, [⟨"intrin/round.rs", 21, [("__undefined", true)]⟩, ⟨"intrin/round.rs", 21, [("__undefined", false)]⟩]⟩,
  ⟨.round, ⟨.f, 4, 8⟩, none, [⟨"intrin/round.rs", 30, [("__undefined", true)]⟩, ⟨"intrin/round.rs", 30, [("__undefined", false)]⟩]⟩,
  ⟨.ceil, ⟨.f, 4, 8⟩, none, [⟨"intrin/round.rs", 30, [("__undefined", true)]⟩, ⟨"intrin/round.rs", 30, [("__undefined", false)]⟩]⟩,
  ⟨.floor, ⟨.f, 4, 8⟩, none, [⟨"intrin/round.rs", 30, [("__undefined", true)]⟩, ⟨"intrin/round.rs", 30, [("__undefined", false)]⟩]⟩,
  ⟨.trunc, ⟨.f, 4, 8⟩, none, [⟨"intrin/round.rs", 30, [("__undefined", true)]⟩, ⟨"intrin/round.rs", 30, [("__undefined", false)]⟩]⟩,
  ⟨.round, ⟨.f, 8, 4⟩, none, [⟨"intrin/round.rs", 39, [("__undefined", true)]⟩, ⟨"intrin/round.rs", 39, [("__undefined", false)]⟩]⟩,
  ⟨.ceil, ⟨.f, 8, 4⟩, none, [⟨"intrin/round.rs", 39, [("__undefined", true)]⟩, ⟨"intrin/round.rs", 39, [("__undefined", false)]⟩]⟩,
  ⟨.floor, ⟨.f, 8, 4⟩, none, [⟨"intrin/round.rs", 39, [("__undefined", true)]⟩, ⟨"intrin/round.rs", 39, [("__undefined", false)]⟩]⟩,
  ⟨.trunc, ⟨.f, 8, 4⟩, none, [⟨"intrin/round.rs", 39, [("__undefined", true)]⟩, ⟨"intrin/round.rs", 39, [("__undefined", false)]⟩]⟩,
  ⟨.rsqrt, ⟨.f, 4, 4⟩, none, [⟨"intrin/rsqrt.rs", 20, [("__undefined", true)]⟩, ⟨"intrin/rsqrt.rs", 20, [("__undefined", false)]⟩]⟩,
  ⟨.rsqrt, ⟨.f, 8, 2⟩, none, [⟨"intrin/rsqrt.rs", 26, [("__undefined", true)]⟩, ⟨"intrin/rsqrt.rs", 26, [("__undefined", false)]⟩]⟩,
  ⟨.saturating_add, ⟨.u, 1, 16⟩, none, [⟨"intrin/saturating_add.rs", 12, [("__undefined", true)]⟩, ⟨"intrin/saturating_add.rs", 12, [("__undefined", false)]⟩]⟩,
  ⟨.saturating_add, ⟨.i, 1, 16⟩, none, [⟨"intrin/saturating_add.rs", 18, [("__undefined", true)]⟩, ⟨"intrin/saturating_add.rs", 18, [("__undefined", false)]⟩]⟩,
  ⟨.saturating_add, ⟨.u, 2, 8⟩, none, [⟨"intrin/saturating_add.rs", 24, [("__undefined", true)]⟩, ⟨"intrin/saturating_add.rs", 24, [("__undefined", false)]⟩]⟩,
  ⟨.saturating_add, ⟨.i, 2, 8⟩, none, [⟨"intrin/saturating_add.rs", 30, [("__undefined", true)]⟩, ⟨"intrin/saturating_add.rs", 30, [("__undefined", false)]⟩]⟩,
  ⟨.saturating_add, ⟨.u, 4, 4⟩, none, [⟨"intrin/saturating_add.rs", 36, [("__undefined", true)]⟩, ⟨"intrin/saturating_add.rs", 36, [("__undefined", false)]⟩]⟩,
  ⟨.saturating_add, ⟨.i, 4, 4⟩, none, [⟨"intrin/saturating_add.rs", 42, [("__undefined", true)]⟩, ⟨"intrin/saturating_add.rs", 42, [("__undefined", false)]⟩]⟩,
  ⟨.saturating_add, ⟨.u, 8, 2⟩, none, [⟨"intrin/saturating_add.rs", 48, [("__undefined", true)]⟩, ⟨"intrin/saturating_add.rs", 48, [("__undefined", false)]⟩]⟩,
  ⟨.saturating_add, ⟨.i, 8, 2⟩, none, [⟨"intrin/saturating_add.rs", 54, [("__undefined", true)]⟩, ⟨"intrin/saturating_add.rs", 54, [("__undefined", false)]⟩]⟩,
  ⟨.saturating_hadd, ⟨.u, 8, 2⟩, none, [⟨"intrin/saturating_hadd.rs", 12, []⟩]⟩,
  ⟨.saturating_hadd, ⟨.u, 4, 4⟩, none, [⟨"intrin/saturating_hadd.rs", 13, []⟩]⟩,
  ⟨.saturating_hadd, ⟨.u, 2, 8⟩, none, [⟨"intrin/saturating_hadd.rs", 14, []⟩]⟩,
  ⟨.saturating_hadd, ⟨.u, 1, 16⟩, none, [⟨"intrin/saturating_hadd.rs", 15, []⟩]⟩,
  ⟨.saturating_hadd, ⟨.i, 8, 2⟩, none, [⟨"intrin/saturating_hadd.rs", 16, []⟩]⟩,
  ⟨.saturating_hadd, ⟨.i, 4, 4⟩, none, [⟨"intrin/saturating_hadd.rs", 17, []⟩]⟩,
  ⟨.saturating_hadd, ⟨.i, 2, 8⟩, none, [⟨"intrin/saturating_hadd.rs", 18, []⟩]⟩,
  ⟨.saturating_hadd, ⟨.i, 1, 16⟩, none, [⟨"intrin/saturating_hadd.rs", 19, []⟩]⟩,
  ⟨.saturating_hsub, ⟨.u, 8, 2⟩, none, [⟨"intrin/saturating_hsub.rs", 12, []⟩]⟩,
  ⟨.saturating_hsub, ⟨.u, 4, 4⟩, none, [⟨"intrin/saturating_hsub.rs", 13, []⟩]⟩,
  ⟨.saturating_hsub, ⟨.u, 2, 8⟩, none, [⟨"intrin/saturating_hsub.rs", 14, []⟩]⟩,
  ⟨.saturating_hsub, ⟨.u, 1, 16⟩, none, [⟨"intrin/saturating_hsub.rs", 15, []⟩]⟩,
  ⟨.saturating_hsub, ⟨.i, 8, 2⟩, none, [⟨"intrin/saturating_hsub.rs", 16, []⟩]⟩,
  ⟨.saturating_hsub, ⟨.i, 4, 4⟩, none, [⟨"intrin/saturating_hsub.rs", 17, []⟩]⟩,
  ⟨.saturating_hsub, ⟨.i, 2, 8⟩, none, [⟨"intrin/saturating_hsub.rs", 18, []⟩]⟩,
  ⟨.saturating_hsub, ⟨.i, 1, 16⟩, none, [⟨"intrin/saturating_hsub.rs", 19, []⟩]⟩,
  ⟨.saturating_sub, ⟨.u, 1, 16⟩, none, [⟨"intrin/saturating_sub.rs", 12, [("__undefined", true)]⟩, ⟨"intrin/saturating_sub.rs", 12, [("__undefined", false)]⟩]⟩,
  ⟨.saturating_sub, ⟨.i, 1, 16⟩, none, [⟨"intrin/saturating_sub.rs", 18, [("__undefined", true)]⟩, ⟨"intrin/saturating_sub.rs", 18, [("__undefined", false)]⟩]⟩,
  ⟨.saturating_sub, ⟨.u, 2, 8⟩, none, [⟨"intrin/saturating_sub.rs", 24, [("__undefined", true)]⟩, ⟨"intrin/saturating_sub.rs", 24, [("__undefined", false)]⟩]⟩,
  ⟨.saturating_sub, ⟨.i, 2, 8⟩, none, [⟨"intrin/saturating_sub.rs", 30, [("__undefined", true)]⟩, ⟨"intrin/saturating_sub.rs", 30, [("__undefined", false)]⟩]⟩,
  ⟨.sqrt, ⟨.f, 4, 4⟩, none, [⟨"intrin/sqrt.rs", 12, [("__undefined", true)]⟩, ⟨"intrin/sqrt.rs", 12, [("__undefined", false)]⟩]⟩,
  ⟨.sqrt, ⟨.f, 8, 2⟩, none, [⟨"intrin/sqrt.rs", 18, [("__undefined", true)]⟩, ⟨"intrin/sqrt.rs", 18, [("__undefined", false)]⟩]⟩,
  ⟨.sum, ⟨.u, 1, 16⟩, none, [⟨"intrin/sum.rs", 12, []⟩]⟩,
  ⟨.sum, ⟨.i, 1, 16⟩, none, [⟨"intrin/sum.rs", 12, []⟩]⟩,
  ⟨.sum, ⟨.u, 2, 8⟩, none, [⟨"intrin/sum.rs", 12, []⟩]⟩,
  ⟨.sum, ⟨.i, 2, 8⟩, none, [⟨"intrin/sum.rs", 12, []⟩]⟩,
  ⟨.sum, ⟨.u, 4, 4⟩, none, [⟨"intrin/sum.rs", 12, []⟩]⟩,
  ⟨.sum, ⟨.i, 4, 4⟩, none, [⟨"intrin/sum.rs", 12, []⟩]⟩,
  ⟨.sum, ⟨.u, 8, 2⟩, none, [⟨"intrin/sum.rs", 12, []⟩]⟩,
  ⟨.sum, ⟨.i, 8, 2⟩, none, [⟨"intrin/sum.rs", 12, []⟩]⟩,
  ⟨.sum, ⟨.f, 4, 4⟩, none, [⟨"intrin/sum.rs", 12, []⟩]⟩,
  ⟨.sum, ⟨.f, 8, 2⟩, none, [⟨"intrin/sum.rs", 12, []⟩]⟩,
  ⟨.sum_upcast, ⟨.u, 1, 16⟩, none, [⟨"intrin/sum.rs", 13, []⟩]⟩,
  ⟨.sum_upcast, ⟨.i, 1, 16⟩, none, [⟨"intrin/sum.rs", 13, []⟩]⟩,
  ⟨.sum_upcast, ⟨.u, 2, 8⟩, none, [⟨"intrin/sum.rs", 13, []⟩]⟩,
  ⟨.sum_upcast, ⟨.i, 2, 8⟩, none, [⟨"intrin/sum.rs", 13, []⟩]⟩,
  ⟨.sum_upcast, ⟨.u, 4, 4⟩, none, [⟨"intrin/sum.rs", 13, []⟩]⟩,
  ⟨.sum_upcast, ⟨.i, 4, 4⟩, none, [⟨"intrin/sum.rs", 13, []⟩]⟩,
  ⟨.sum_upcast, ⟨.u, 8, 2⟩, none, [⟨"intrin/sum.rs", 13, []⟩]⟩,
  ⟨.sum_upcast, ⟨.i, 8, 2⟩, none, [⟨"intrin/sum.rs", 13, []⟩]⟩,
  ⟨.sum_upcast, ⟨.f, 4, 4⟩, none, [⟨"intrin/sum.rs", 13, []⟩]⟩,
  ⟨.sum_upcast, ⟨.f, 8, 2⟩, none, [⟨"intrin/sum.rs", 13, []⟩]⟩,
  ⟨.be_i8s, ⟨.u, 1, 16⟩, none, [⟨"intrin/transmute.rs", 12, []⟩]⟩,
  ⟨.be_u8s, ⟨.u, 1, 16⟩, none, [⟨"intrin/transmute.rs", 12, []⟩]⟩,
  ⟨.be_i16s, ⟨.u, 1, 16⟩, none, [⟨"intrin/transmute.rs", 12, []⟩]⟩,
  ⟨.be_u16s, ⟨.u, 1, 16⟩, none, [⟨"intrin/transmute.rs", 12, []⟩]⟩,
  ⟨.be_i32s, ⟨.u, 1, 16⟩, none, [⟨"intrin/transmute.rs", 12, []⟩]⟩,
  ⟨.be_u32s, ⟨.u, 1, 16⟩, none, [⟨"intrin/transmute.rs", 12, []⟩]⟩,
  ⟨.be_f32s_unchecked, ⟨.u, 1, 16⟩, none, [⟨"intrin/transmute.rs", 12, []⟩]⟩,
  ⟨.be_i64s, ⟨.u, 1, 16⟩, none, [⟨"intrin/transmute.rs", 12, []⟩]⟩,
  ⟨.be_u64s, ⟨.u, 1, 16⟩, none, [⟨"intrin/transmute.rs", 12, []⟩]⟩,
  ⟨.be_f64s_unchecked, ⟨.u, 1, 16⟩, none, [⟨"intrin/transmute.rs", 12, []⟩]⟩,
  ⟨.be_i8s, ⟨.i, 1, 16⟩, none, [⟨"intrin/transmute.rs", 12, []⟩]⟩,
  ⟨.be_u8s, ⟨.i, 1, 16⟩, none, [⟨"intrin/transmute.rs", 12, []⟩]⟩,
  ⟨.be_i16s, ⟨.i, 1, 16⟩, none, [⟨"intrin/transmute.rs", 12, []⟩]⟩,
  ⟨.be_u16s, ⟨.i, 1, 16⟩, none, [⟨"intrin/transmute.rs", 12, []⟩]⟩,
  ⟨.be_i32s, ⟨.i, 1, 16⟩, none, [⟨"intrin/transmute.rs", 12, []⟩]⟩,
  ⟨.be_u32s, ⟨.i, 1, 16⟩, none, [⟨"intrin/transmute.rs", 12, []⟩]⟩,
  ⟨.be_f32s_unchecked, ⟨.i, 1, 16⟩, none, [⟨"intrin/transmute.rs", 12, []⟩]⟩,
  ⟨.be_i64s, ⟨.i, 1, 16⟩, none, [⟨"intrin/transmute.rs", 12, []⟩]⟩,
  ⟨.be_u64s, ⟨.i, 1, 16⟩, none, [⟨"intrin/transmute.rs", 12, []⟩]⟩,
  ⟨.be_f64s_unchecked, ⟨.i, 1, 16⟩, none, [⟨"intrin/transmute.rs", 12, []⟩]⟩,
  ⟨.be_i8s, ⟨.u, 2, 8⟩, none, [⟨"intrin/transmute.rs", 12, []⟩]⟩,
  ⟨.be_u8s, ⟨.u, 2, 8⟩, none, [⟨"intrin/transmute.rs", 12, []⟩]⟩,
  ⟨.be_i16s, ⟨.u, 2, 8⟩, none, [⟨"intrin/transmute.rs", 12, []⟩]⟩,
  ⟨.be_u16s, ⟨.u, 2, 8⟩, none, [⟨"intrin/transmute.rs", 12, []⟩]⟩,
  ⟨.be_i32s, ⟨.u, 2, 8⟩, none, [⟨"intrin/transmute.rs", 12, []⟩]⟩,
  ⟨.be_u32s, ⟨.u, 2, 8⟩, none, [⟨"intrin/transmute.rs", 12, []⟩]⟩,
  ⟨.be_f32s_unchecked, ⟨.u, 2, 8⟩, none, [⟨"intrin/transmute.rs", 12, []⟩]⟩,
  ⟨.be_i64s, ⟨.u, 2, 8⟩, none, [⟨"intrin/transmute.rs", 12, []⟩]⟩,
  ⟨.be_u64s, ⟨.u, 2, 8⟩, none, [⟨"intrin/transmute.rs", 12, []⟩]⟩,
  ⟨.be_f64s_unchecked, ⟨.u, 2, 8⟩, none, [⟨"intrin/transmute.rs", 12, []⟩]⟩,
  ⟨.be_i8s, ⟨.i, 2, 8⟩, none, [⟨"intrin/transmute.rs", 12, []⟩]⟩,
  ⟨.be_u8s, ⟨.i, 2, 8⟩, none, [⟨"intrin/transmute.rs", 12, []⟩]⟩,
  ⟨.be_i16s, ⟨.i, 2, 8⟩, none, [⟨"intrin/transmute.rs", 12, []⟩]⟩,
  ⟨.be_u16s, ⟨.i, 2, 8⟩, none, [⟨"intrin/transmute.rs", 12, []⟩]⟩,
  ⟨.be_i32s, ⟨.i, 2, 8⟩, none, [⟨"intrin/transmute.rs", 12, []⟩]⟩,
  ⟨.be_u32s, ⟨.i, 2, 8⟩, none, [⟨"intrin/transmute.rs", 12, []⟩]⟩,
  ⟨.be_f32s_unchecked, ⟨.i, 2, 8⟩, none, [⟨"intrin/transmute.rs", 12, []⟩]⟩,
  ⟨.be_i64s, ⟨.i, 2, 8⟩, none, [⟨"intrin/transmute.rs", 12, []⟩]⟩,
  ⟨.be_u64s, ⟨.i, 2, 8⟩, none, [⟨"intrin/transmute.rs", 12, []⟩]⟩,
  ⟨.be_f64s_unchecked, ⟨.i, 2, 8⟩, none, [⟨"intrin/transmute.rs", 12, []⟩]⟩,
  ⟨.be_i8s, ⟨.u, 4, 4⟩, none, [⟨"intrin/transmute.rs", 12, []⟩]⟩,
  ⟨.be_u8s, ⟨.u, 4, 4⟩, none, [⟨"intrin/transmute.rs", 12, []⟩]⟩,
  ⟨.be_i16s, ⟨.u, 4, 4⟩, none, [⟨"intrin/transmute.rs", 12, []⟩]⟩,
  ⟨.be_u16s, ⟨.u, 4, 4⟩, none, [⟨"intrin/transmute.rs", 12, []⟩]⟩,
  ⟨.be_i32s, ⟨.u, 4, 4⟩, none, [⟨"intrin/transmute.rs", 12, []⟩]⟩,
  ⟨.be_u32s, ⟨.u, 4, 4⟩, none, [⟨"intrin/transmute.rs", 12, []⟩]⟩,
  ⟨.be_f32s_unchecked, ⟨.u, 4, 4⟩, none, [⟨"intrin/transmute.rs", 12, []⟩]⟩,
  ⟨.be_i64s, ⟨.u, 4, 4⟩, none, [⟨"intrin/transmute.rs", 12, []⟩]⟩,
  ⟨.be_u64s, ⟨.u, 4, 4⟩, none, [⟨"intrin/transmute.rs", 12, []⟩]⟩,
  ⟨.be_f64s_unchecked, ⟨.u, 4, 4⟩, none, [⟨"intrin/transmute.rs", 12, []⟩]⟩,
  ⟨.be_i8s, ⟨.i, 4, 4⟩, none, [⟨"intrin/transmute.rs", 12, []⟩]⟩,
  ⟨.be_u8s, ⟨.i, 4, 4⟩, none, [⟨"intrin/transmute.rs", 12, []⟩]⟩,
  ⟨.be_i16s, ⟨.i, 4, 4⟩, none, [⟨"intrin/transmute.rs", 12, []⟩]⟩,
  ⟨.be_u16s, ⟨.i, 4, 4⟩, none, [⟨"intrin/transmute.rs", 12, []⟩]⟩,
  ⟨.be_i32s, ⟨.i, 4, 4⟩, none, [⟨"intrin/transmute.rs", 12, []⟩]⟩,
  ⟨.be_u32s, ⟨.i, 4, 4⟩, none, [⟨"intrin/transmute.rs", 12, []⟩]⟩,
  ⟨.be_f32s_unchecked, ⟨.i, 4, 4⟩, none, [⟨"intrin/transmute.rs", 12, []⟩]⟩,
  ⟨.be_i64s, ⟨.i, 4, 4⟩, none, [⟨"intrin/transmute.rs", 12, []⟩]⟩,
  ⟨.be_u64s, ⟨.i, 4, 4⟩, none, [⟨"intrin/transmute.rs", 12, []⟩]⟩,
  ⟨.be_f64s_unchecked, ⟨.i, 4, 4⟩, none, [⟨"intrin/transmute.rs", 12, []⟩]⟩,
  ⟨.be_i8s, ⟨.f, 4, 4⟩, none, [⟨"intrin/transmute.rs", 12, []⟩]⟩,
  ⟨.be_u8s, ⟨.f, 4, 4⟩, none, [⟨"intrin/transmute.rs", 12, []⟩]⟩,
  ⟨.be_i16s, ⟨.f, 4, 4⟩, none, [⟨"intrin/transmute.rs", 12, []⟩]⟩,
  ⟨.be_u16s, ⟨.f, 4, 4⟩, none, [⟨"intrin/transmute.rs", 12, []⟩]⟩,
  ⟨.be_i32s, ⟨.f, 4, 4⟩, none, [⟨"intrin/transmute.rs", 12, []⟩]⟩,
  ⟨.be_u32s, ⟨.f, 4, 4⟩, none, [⟨"intrin/transmute.rs", 12, []⟩]⟩,
  ⟨.be_f32s_unchecked, ⟨.f, 4, 4⟩, none, [⟨"intrin/transmute.rs", 12, []⟩]⟩,
  ⟨.be_i64s, ⟨.f, 4, 4⟩, none, [⟨"intrin/transmute.rs", 12, []⟩]⟩,
  ⟨.be_u64s, ⟨.f, 4, 4⟩, none, [⟨"intrin/transmute.rs", 12, []⟩]⟩,
  ⟨.be_f64s_unchecked, ⟨.f, 4, 4⟩, none, [⟨"intrin/transmute.rs", 12, []⟩]⟩,
  ⟨.be_i8s, ⟨.u, 8, 2⟩, none, [⟨"intrin/transmute.rs", 12, []⟩]⟩,
  ⟨.be_u8s, ⟨.u, 8, 2⟩, none, [⟨"intrin/transmute.rs", 12, []⟩]⟩,
  ⟨.be_i16s, ⟨.u, 8, 2⟩, none, [⟨"intrin/transmute.rs", 12, []⟩]⟩,
  ⟨.be_u16s, ⟨.u, 8, 2⟩, none, [⟨"intrin/transmute.rs", 12, []⟩]⟩,
  ⟨.be_i32s, ⟨.u, 8, 2⟩, none, [⟨"intrin/transmute.rs", 12, []⟩]⟩,
  ⟨.be_u32s, ⟨.u, 8, 2⟩, none, [⟨"intrin/transmute.rs", 12, []⟩]⟩,
  ⟨.be_f32s_unchecked, ⟨.u, 8, 2⟩, none, [⟨"intrin/transmute.rs", 12, []⟩]⟩,
  ⟨.be_i64s, ⟨.u, 8, 2⟩, none, [⟨"intrin/transmute.rs", 12, []⟩]⟩,
  ⟨.be_u64s, ⟨.u, 8, 2⟩, none, [⟨"intrin/transmute.rs", 12, []⟩]⟩,
  ⟨.be_f64s_unchecked, ⟨.u, 8, 2⟩, none, [⟨"intrin/transmute.rs", 12, []⟩]⟩,
  ⟨.be_i8s, ⟨.i, 8, 2⟩, none, [⟨"intrin/transmute.rs", 12, []⟩]⟩,
  ⟨.be_u8s, ⟨.i, 8, 2⟩, none, [⟨"intrin/transmute.rs", 12, []⟩]⟩,
  ⟨.be_i16s, ⟨.i, 8, 2⟩, none, [⟨"intrin/transmute.rs", 12, []⟩]⟩,
  ⟨.be_u16s, ⟨.i, 8, 2⟩, none, [⟨"intrin/transmute.rs", 12, []⟩]⟩,
  ⟨.be_i32s, ⟨.i, 8, 2⟩, none, [⟨"intrin/transmute.rs", 12, []⟩]⟩,
  ⟨.be_u32s, ⟨.i, 8, 2⟩, none, [⟨"intrin/transmute.rs", 12, []⟩]⟩,
  ⟨.be_f32s_unchecked, ⟨.i, 8, 2⟩, none, [⟨"intrin/transmute.rs", 12, []⟩]⟩,
  ⟨.be_i64s, ⟨.i, 8, 2⟩, none, [⟨"intrin/transmute.rs", 12, []⟩]⟩,
  ⟨.be_u64s, ⟨.i, 8, 2⟩, none, [⟨"intrin/transmute.rs", 12, []⟩]⟩,
  ⟨.be_f64s_unchecked, ⟨.i, 8, 2⟩, none, [⟨"intrin/transmute.rs", 12, []⟩]⟩,
  ⟨.be_i8s, ⟨.f, 8, 2⟩, none, [⟨"intrin/transmute.rs", 12, []⟩]⟩,
  ⟨.be_u8s, ⟨.f, 8, 2⟩, none, [⟨"intrin/transmute.rs", 12, []⟩]⟩,
  ⟨.be_i16s, ⟨.f, 8, 2⟩, none, [⟨"intrin/transmute.rs", 12, []⟩]⟩,
  ⟨.be_u16s, ⟨.f, 8, 2⟩, none, [⟨"intrin/transmute.rs", 12, []⟩]⟩,
  ⟨.be_i32s, ⟨.f, 8, 2⟩, none, [⟨"intrin/transmute.rs", 12, []⟩]⟩,
  ⟨.be_u32s, ⟨.f, 8, 2⟩, none, [⟨"intrin/transmute.rs", 12, []⟩]⟩,
  ⟨.be_f32s_unchecked, ⟨.f, 8, 2⟩, none, [⟨"intrin/transmute.rs", 12, []⟩]⟩,
  ⟨.be_i64s, ⟨.f, 8, 2⟩, none, [⟨"intrin/transmute.rs", 12, []⟩]⟩,
  ⟨.be_u64s, ⟨.f, 8, 2⟩, none, [⟨"intrin/transmute.rs", 12, []⟩]⟩,
  ⟨.be_f64s_unchecked, ⟨.f, 8, 2⟩, none, [⟨"intrin/transmute.rs", 12, []⟩]⟩,
  ⟨.upcast, ⟨.u, 1, 16⟩, some ⟨.u, 2, 8⟩, [⟨"intrin/upcast.rs", 13, []⟩]⟩,
  ⟨.upcast, ⟨.i, 1, 16⟩, some ⟨.i, 2, 8⟩, [⟨"intrin/upcast.rs", 35, []⟩]⟩,
  ⟨.upcast, ⟨.u, 2, 8⟩, some ⟨.u, 4, 4⟩, [⟨"intrin/upcast.rs", 57, []⟩]⟩,
  ⟨.upcast, ⟨.i, 2, 8⟩, some ⟨.i, 4, 4⟩, [⟨"intrin/upcast.rs", 71, []⟩]⟩,
  ⟨.upcast, ⟨.u, 1, 32⟩, some ⟨.u, 2, 16⟩, [⟨"intrin/upcast.rs", 85, []⟩]⟩,
  ⟨.upcast, ⟨.i, 1, 32⟩, some ⟨.i, 2, 16⟩, [⟨"intrin/upcast.rs", 123, []⟩]⟩,
  ⟨.upcast, ⟨.u, 2, 16⟩, some ⟨.u, 4, 8⟩, [⟨"intrin/upcast.rs", 161, []⟩]⟩,
  ⟨.upcast, ⟨.i, 2, 16⟩, some ⟨.i, 4, 8⟩, [⟨"intrin/upcast.rs", 184, []⟩]⟩,
  ⟨.upcast, ⟨.f, 4, 4⟩, some ⟨.f, 8, 2⟩, [⟨"intrin/upcast.rs", 206, []⟩]⟩,
  ⟨.upcast, ⟨.i, 4, 4⟩, some ⟨.f, 8, 2⟩, [⟨"intrin/upcast.rs", 216, []⟩]⟩,
  ⟨.upcast, ⟨.i, 4, 4⟩, some ⟨.i, 8, 2⟩, [⟨"intrin/upcast.rs", 226, []⟩]⟩,
  ⟨.upcast, ⟨.u, 4, 4⟩, some ⟨.u, 8, 2⟩, [⟨"intrin/upcast.rs", 236, []⟩]⟩,
  ⟨.upcast, ⟨.f, 4, 8⟩, some ⟨.f, 8, 4⟩, [⟨"intrin/upcast.rs", 246, []⟩]⟩,
  ⟨.upcast, ⟨.i, 4, 8⟩, some ⟨.f, 8, 4⟩, [⟨"intrin/upcast.rs", 260, []⟩]⟩,
  ⟨.upcast, ⟨.i, 4, 8⟩, some ⟨.i, 8, 4⟩, [⟨"intrin/upcast.rs", 274, []⟩]⟩,
  ⟨.upcast, ⟨.u, 4, 8⟩, some ⟨.u, 8, 4⟩, [⟨"intrin/upcast.rs", 288, []⟩]⟩,
  ⟨.upcast, ⟨.f, 4, 16⟩, some ⟨.f, 8, 8⟩, [⟨"intrin/upcast.rs", 302, []⟩]⟩,
  ⟨.upcast, ⟨.i, 4, 16⟩, some ⟨.f, 8, 8⟩, [⟨"intrin/upcast.rs", 324, []⟩]⟩,
  ⟨.upcast, ⟨.i, 4, 16⟩, some ⟨.i, 8, 8⟩, [⟨"intrin/upcast.rs", 346, []⟩]⟩,
  ⟨.upcast, ⟨.u, 4, 16⟩, some ⟨.u, 8, 8⟩, [⟨"intrin/upcast.rs", 368, []⟩]⟩,
  ⟨.halfs, ⟨.u, 1, 16⟩, none, [⟨"vec_patterns.rs", 39, []⟩]⟩,
  ⟨.interleave, ⟨.u, 1, 16⟩, none, [⟨"vec_patterns.rs", 44, []⟩]⟩,
  ⟨.partition_mask, ⟨.u, 1, 16⟩, none, [⟨"vec_patterns.rs", 49, []⟩]⟩,
  ⟨.partition, ⟨.u, 1, 16⟩, none, [⟨"vec_patterns.rs", 57, [("__undefined", true)]⟩, ⟨"vec_patterns.rs", 64, [("__undefined", false)]⟩]⟩,
  ⟨.ones, ⟨.u, 1, 16⟩, none, [⟨"vec_patterns.rs", 91, []⟩]⟩,
  ⟨.zeroes, ⟨.u, 1, 16⟩, none, [⟨"vec_patterns.rs", 97, []⟩]⟩,
  ⟨.halfs, ⟨.i, 1, 16⟩, none, [⟨"vec_patterns.rs", 104, []⟩]⟩,
  ⟨.interleave, ⟨.i, 1, 16⟩, none, [⟨"vec_patterns.rs", 109, []⟩]⟩,
  ⟨.partition_mask, ⟨.i, 1, 16⟩, none, [⟨"vec_patterns.rs", 114, []⟩]⟩,
  ⟨.partition, ⟨.i, 1, 16⟩, none, [⟨"vec_patterns.rs", 122, [("__undefined", true)]⟩, ⟨"vec_patterns.rs", 129, [("__undefined", false)]⟩]⟩,
  ⟨.ones, ⟨.i, 1, 16⟩, none, [⟨"vec_patterns.rs", 156, []⟩]⟩,
  ⟨.zeroes, ⟨.i, 1, 16⟩, none, [⟨"vec_patterns.rs", 162, []⟩]⟩,
  ⟨.halfs, ⟨.u, 2, 8⟩, none, [⟨"vec_patterns.rs", 169, []⟩]⟩,
  ⟨.interleave, ⟨.u, 2, 8⟩, none, [⟨"vec_patterns.rs", 174, []⟩]⟩,
  ⟨.partition_mask, ⟨.u, 2, 8⟩, none, [⟨"vec_patterns.rs", 179, []⟩]⟩,
  ⟨.partition, ⟨.u, 2, 8⟩, none, [⟨"vec_patterns.rs", 187, [("__undefined", true)]⟩, ⟨"vec_patterns.rs", 194, [("__undefined", false)]⟩]⟩,
  ⟨.ones, ⟨.u, 2, 8⟩, none, [⟨"vec_patterns.rs", 213, []⟩]⟩,
  ⟨.zeroes, ⟨.u, 2, 8⟩, none, [⟨"vec_patterns.rs", 219, []⟩]⟩,
  ⟨.halfs, ⟨.i, 2, 8⟩, none, [⟨"vec_patterns.rs", 226, []⟩]⟩,
  ⟨.interleave, ⟨.i, 2, 8⟩, none, [⟨"vec_patterns.rs", 231, []⟩]⟩,
  ⟨.partition_mask, ⟨.i, 2, 8⟩, none, [⟨"vec_patterns.rs", 236, []⟩]⟩,
  ⟨.partition, ⟨.i, 2, 8⟩, none, [⟨"vec_patterns.rs", 244, [("__undefined", true)]⟩, ⟨"vec_patterns.rs", 251, [("__undefined", false)]⟩]⟩,
  ⟨.ones, ⟨.i, 2, 8⟩, none, [⟨"vec_patterns.rs", 270, []⟩]⟩,
  ⟨.zeroes, ⟨.i, 2, 8⟩, none, [⟨"vec_patterns.rs", 276, []⟩]⟩,
  ⟨.halfs, ⟨.u, 4, 4⟩, none, [⟨"vec_patterns.rs", 283, []⟩]⟩,
  ⟨.interleave, ⟨.u, 4, 4⟩, none, [⟨"vec_patterns.rs", 288, []⟩]⟩,
  ⟨.partition_mask, ⟨.u, 4, 4⟩, none, [⟨"vec_patterns.rs", 293, []⟩]⟩,
  ⟨.partition, ⟨.u, 4, 4⟩, none, [⟨"vec_patterns.rs", 301, [("__undefined", true)]⟩, ⟨"vec_patterns.rs", 308, [("__undefined", false)]⟩]⟩,
  ⟨.ones, ⟨.u, 4, 4⟩, none, [⟨"vec_patterns.rs", 323, []⟩]⟩,
  ⟨.zeroes, ⟨.u, 4, 4⟩, none, [⟨"vec_patterns.rs", 329, []⟩]⟩,
  ⟨.halfs, ⟨.i, 4, 4⟩, none, [⟨"vec_patterns.rs", 336, []⟩]⟩,
  ⟨.interleave, ⟨.i, 4, 4⟩, none, [⟨"vec_patterns.rs", 341, []⟩]⟩,
  ⟨.partition_mask, ⟨.i, 4, 4⟩, none, [⟨"vec_patterns.rs", 346, []⟩]⟩,
  ⟨.partition, ⟨.i, 4, 4⟩, none, [⟨"vec_patterns.rs", 354, [("__undefined", true)]⟩, ⟨"vec_patterns.rs", 361, [("__undefined", false)]⟩]⟩,
  ⟨.ones, ⟨.i, 4, 4⟩, none, [⟨"vec_patterns.rs", 376, []⟩]⟩,
  ⟨.zeroes, ⟨.i, 4, 4⟩, none, [⟨"vec_patterns.rs", 382, []⟩]⟩,
  ⟨.halfs, ⟨.f, 4, 4⟩, none, [⟨"vec_patterns.rs", 389, []⟩]⟩,
  ⟨.interleave, ⟨.f, 4, 4⟩, none, [⟨"vec_patterns.rs", 394, []⟩]⟩,
  ⟨.partition_mask, ⟨.f, 4, 4⟩, none, [⟨"vec_patterns.rs", 399, []⟩]⟩,
  ⟨.partition, ⟨.f, 4, 4⟩, none, [⟨"vec_patterns.rs", 407, [("__undefined", true)]⟩, ⟨"vec_patterns.rs", 414, [("__undefined", false)]⟩]⟩,
  ⟨.ones, ⟨.f, 4, 4⟩, none, [⟨"vec_patterns.rs", 429, []⟩]⟩,
  ⟨.zeroes, ⟨.f, 4, 4⟩, none, [⟨"vec_patterns.rs", 435, []⟩]⟩,
  ⟨.halfs, ⟨.u, 8, 2⟩, none, [⟨"vec_patterns.rs", 442, []⟩]⟩,
  ⟨.interleave, ⟨.u, 8, 2⟩, none, [⟨"vec_patterns.rs", 447, []⟩]⟩,
  ⟨.partition_mask, ⟨.u, 8, 2⟩, none, [⟨"vec_patterns.rs", 452, []⟩]⟩,
  ⟨.partition, ⟨.u, 8, 2⟩, none, [⟨"vec_patterns.rs", 460, [("__undefined", true)]⟩, ⟨"vec_patterns.rs", 467, [("__undefined", false)]⟩]⟩,
  ⟨.ones, ⟨.u, 8, 2⟩, none, [⟨"vec_patterns.rs", 480, []⟩]⟩,
  ⟨.zeroes, ⟨.u, 8, 2⟩, none, [⟨"vec_patterns.rs", 486, []⟩]⟩,
  ⟨.halfs, ⟨.i, 8, 2⟩, none, [⟨"vec_patterns.rs", 493, []⟩]⟩,
  ⟨.interleave, ⟨.i, 8, 2⟩, none, [⟨"vec_patterns.rs", 498, []⟩]⟩,
  ⟨.partition_mask, ⟨.i, 8, 2⟩, none, [⟨"vec_patterns.rs", 503, []⟩]⟩,
  ⟨.partition, ⟨.i, 8, 2⟩, none, [⟨"vec_patterns.rs", 511, [("__undefined", true)]⟩, ⟨"vec_patterns.rs", 518, [("__undefined", false)]⟩]⟩,
  ⟨.ones, ⟨.i, 8, 2⟩, none, [⟨"vec_patterns.rs", 531, []⟩]⟩,
  ⟨.zeroes, ⟨.i, 8, 2⟩, none, [⟨"vec_patterns.rs", 537, []⟩]⟩,
  ⟨.halfs, ⟨.f, 8, 2⟩, none, [⟨"vec_patterns.rs", 544, []⟩]⟩,
  ⟨.interleave, ⟨.f, 8, 2⟩, none, [⟨"vec_patterns.rs", 549, []⟩]⟩,
  ⟨.partition_mask, ⟨.f, 8, 2⟩, none, [⟨"vec_patterns.rs", 554, []⟩]⟩,
  ⟨.partition, ⟨.f, 8, 2⟩, none, [⟨"vec_patterns.rs", 562, [("__undefined", true)]⟩, ⟨"vec_patterns.rs", 569, [("__undefined", false)]⟩]⟩,
  ⟨.ones, ⟨.f, 8, 2⟩, none, [⟨"vec_patterns.rs", 582, []⟩]⟩,
  ⟨.zeroes, ⟨.f, 8, 2⟩, none, [⟨"vec_patterns.rs", 588, []⟩]⟩,
  ⟨.load, ⟨.u, 1, 16⟩, none, [⟨"vecs.rs", 231, []⟩]⟩,
  ⟨.load_unchecked, ⟨.u, 1, 16⟩, none, [⟨"vecs.rs", 231, []⟩]⟩,
  ⟨.store, ⟨.u, 1, 16⟩, none, [⟨"vecs.rs", 231, []⟩]⟩,
  ⟨.store_unchecked, ⟨.u, 1, 16⟩, none, [⟨"vecs.rs", 231, []⟩]⟩,
  ⟨.coalesce, ⟨.u, 1, 16⟩, none, [⟨"vecs.rs", 231, []⟩]⟩,
  ⟨.extract, ⟨.u, 1, 16⟩, none, [⟨"vecs.rs", 231, []⟩]⟩,
  ⟨.extract_unchecked, ⟨.u, 1, 16⟩, none, [⟨"vecs.rs", 231, []⟩]⟩,
  ⟨.replace, ⟨.u, 1, 16⟩, none, [⟨"vecs.rs", 231, []⟩]⟩,
  ⟨.replace_unchecked, ⟨.u, 1, 16⟩, none, [⟨"vecs.rs", 231, []⟩]⟩,
  ⟨.splat, ⟨.u, 1, 16⟩, none, [⟨"vecs.rs", 231, []⟩]⟩,
  ⟨.default, ⟨.u, 1, 16⟩, none, [⟨"vecs.rs", 231, []⟩]⟩,
  ⟨.product, ⟨.u, 1, 16⟩, none, [⟨"vecs.rs", 231, []⟩]⟩,
  ⟨.scalar_reduce, ⟨.u, 1, 16⟩, none, [⟨"vecs.rs", 231, []⟩]⟩,
  ⟨.load, ⟨.i, 1, 16⟩, none, [⟨"vecs.rs", 232, []⟩]⟩,
  ⟨.load_unchecked, ⟨.i, 1, 16⟩, none, [⟨"vecs.rs", 232, []⟩]⟩,
  ⟨.store, ⟨.i, 1, 16⟩, none, [⟨"vecs.rs", 232, []⟩]⟩,
  ⟨.store_unchecked, ⟨.i, 1, 16⟩, none, [⟨"vecs.rs", 232, []⟩]⟩,
  ⟨.coalesce, ⟨.i, 1, 16⟩, none, [⟨"vecs.rs", 232, []⟩]⟩,
  ⟨.extract, ⟨.i, 1, 16⟩, none, [⟨"vecs.rs", 232, []⟩]⟩,
  ⟨.extract_unchecked, ⟨.i, 1, 16⟩, none, [⟨"vecs.rs", 232, []⟩]⟩,
  ⟨.replace, ⟨.i, 1, 16⟩, none, [⟨"vecs.rs", 232, []⟩]⟩,
  ⟨.replace_unchecked, ⟨.i, 1, 16⟩, none, [⟨"vecs.rs", 232, []⟩]⟩,
  ⟨.splat, ⟨.i, 1, 16⟩, none, [⟨"vecs.rs", 232, []⟩]⟩,
  ⟨.default, ⟨.i, 1, 16⟩, none, [⟨"vecs.rs", 232, []⟩]⟩,
  ⟨.product, ⟨.i, 1, 16⟩, none, [⟨"vecs.rs", 232, []⟩]⟩,
  ⟨.scalar_reduce, ⟨.i, 1, 16⟩, none, [⟨"vecs.rs", 232, []⟩]⟩,
  ⟨.load, ⟨.u, 2, 8⟩, none, [⟨"vecs.rs", 233, []⟩]⟩,
  ⟨.load_unchecked, ⟨.u, 2, 8⟩, none, [⟨"vecs.rs", 233, []⟩]⟩,
  ⟨.store, ⟨.u, 2, 8⟩, none, [⟨"vecs.rs", 233, []⟩]⟩,
  ⟨.store_unchecked, ⟨.u, 2, 8⟩, none, [⟨"vecs.rs", 233, []⟩]⟩,
  ⟨.coalesce, ⟨.u, 2, 8⟩, none, [⟨"vecs.rs", 233, []⟩]⟩,
  ⟨.extract, ⟨.u, 2, 8⟩, none, [⟨"vecs.rs", 233, []⟩]⟩,
  ⟨.extract_unchecked, ⟨.u, 2, 8⟩, none, [⟨"vecs.rs", 233, []⟩]⟩,
  ⟨.replace, ⟨.u, 2, 8⟩, none, [⟨"vecs.rs", 233, []⟩]⟩,
  ⟨.replace_unchecked, ⟨.u, 2, 8⟩, none, [⟨"vecs.rs", 233, []⟩]⟩,
  ⟨.splat, ⟨.u, 2, 8⟩, none, [⟨"vecs.rs", 233, []⟩]⟩,
  ⟨.default, ⟨.u, 2, 8⟩, none, [⟨"vecs.rs", 233, []⟩]⟩,
  ⟨.product, ⟨.u, 2, 8⟩, none, [⟨"vecs.rs", 233, []⟩]⟩,
  ⟨.scalar_reduce, ⟨.u, 2, 8⟩, none, [⟨"vecs.rs", 233, []⟩]⟩,
  ⟨.load, ⟨.i, 2, 8⟩, none, [⟨"vecs.rs", 234, []⟩]⟩,
  ⟨.load_unchecked, ⟨.i, 2, 8⟩, none, [⟨"vecs.rs", 234, []⟩]⟩,
  ⟨.store, ⟨.i, 2, 8⟩, none, [⟨"vecs.rs", 234, []⟩]⟩,
  ⟨.store_unchecked, ⟨.i, 2, 8⟩, none, [⟨"vecs.rs", 234, []⟩]⟩,
  ⟨.coalesce, ⟨.i, 2, 8⟩, none, [⟨"vecs.rs", 234, []⟩]⟩,
  ⟨.extract, ⟨.i, 2, 8⟩, none, [⟨"vecs.rs", 234, []⟩]⟩,
  ⟨.extract_unchecked, ⟨.i, 2, 8⟩, none, [⟨"vecs.rs", 234, []⟩]⟩,
  ⟨.replace, ⟨.i, 2, 8⟩, none, [⟨"vecs.rs", 234, []⟩]⟩,
  ⟨.replace_unchecked, ⟨.i, 2, 8⟩, none, [⟨"vecs.rs", 234, []⟩]⟩,
  ⟨.splat, ⟨.i, 2, 8⟩, none, [⟨"vecs.rs", 234, []⟩]⟩,
  ⟨.default, ⟨.i, 2, 8⟩, none, [⟨"vecs.rs", 234, []⟩]⟩,
  ⟨.product, ⟨.i, 2, 8⟩, none, [⟨"vecs.rs", 234, []⟩]⟩,
  ⟨.scalar_reduce, ⟨.i, 2, 8⟩, none, [⟨"vecs.rs", 234, []⟩]⟩,
  ⟨.load, ⟨.u, 4, 4⟩, none, [⟨"vecs.rs", 235, []⟩]⟩,
  ⟨.load_unchecked, ⟨.u, 4, 4⟩, none, [⟨"vecs.rs", 235, []⟩]⟩,
  ⟨.store, ⟨.u, 4, 4⟩, none, [⟨"vecs.rs", 235, []⟩]⟩,
  ⟨.store_unchecked, ⟨.u, 4, 4⟩, none, [⟨"vecs.rs", 235, []⟩]⟩,
  ⟨.coalesce, ⟨.u, 4, 4⟩, none, [⟨"vecs.rs", 235, []⟩]⟩,
  ⟨.extract, ⟨.u, 4, 4⟩, none, [⟨"vecs.rs", 235, []⟩]⟩,
  ⟨.extract_unchecked, ⟨.u, 4, 4⟩, none, [⟨"vecs.rs", 235, []⟩]⟩,
  ⟨.replace, ⟨.u, 4, 4⟩, none, [⟨"vecs.rs", 235, []⟩]⟩,
  ⟨.replace_unchecked, ⟨.u, 4, 4⟩, none, [⟨"vecs.rs", 235, []⟩]⟩,
  ⟨.splat, ⟨.u, 4, 4⟩, none, [⟨"vecs.rs", 235, []⟩]⟩,
  ⟨.default, ⟨.u, 4, 4⟩, none, [⟨"vecs.rs", 235, []⟩]⟩,
  ⟨.product, ⟨.u, 4, 4⟩, none, [⟨"vecs.rs", 235, []⟩]⟩,
  ⟨.scalar_reduce, ⟨.u, 4, 4⟩, none, [⟨"vecs.rs", 235, []⟩]⟩,
  ⟨.load, ⟨.i, 4, 4⟩, none, [⟨"vecs.rs", 236, []⟩]⟩,
  ⟨.load_unchecked, ⟨.i, 4, 4⟩, none, [⟨"vecs.rs", 236, []⟩]⟩,
  ⟨.store, ⟨.i, 4, 4⟩, none, [⟨"vecs.rs", 236, []⟩]⟩,
  ⟨.store_unchecked, ⟨.i, 4, 4⟩, none, [⟨"vecs.rs", 236, []⟩]⟩,
  ⟨.coalesce, ⟨.i, 4, 4⟩, none, [⟨"vecs.rs", 236, []⟩]⟩,
  ⟨.extract, ⟨.i, 4, 4⟩, none, [⟨"vecs.rs", 236, []⟩]⟩,
  ⟨.extract_unchecked, ⟨.i, 4, 4⟩, none, [⟨"vecs.rs", 236, []⟩]⟩,
  ⟨.replace, ⟨.i, 4, 4⟩, none, [⟨"vecs.rs", 236, []⟩]⟩,
  ⟨.replace_unchecked, ⟨.i, 4, 4⟩, none, [⟨"vecs.rs", 236, []⟩]⟩,
  ⟨.splat, ⟨.i, 4, 4⟩, none, [⟨"vecs.rs", 236, []⟩]⟩,
  ⟨.default, ⟨.i, 4, 4⟩, none, [⟨"vecs.rs", 236, []⟩]⟩,
  ⟨.product, ⟨.i, 4, 4⟩, none, [⟨"vecs.rs", 236, []⟩]⟩,
  ⟨.scalar_reduce, ⟨.i, 4, 4⟩, none, [⟨"vecs.rs", 236, []⟩]⟩,
  ⟨.load, ⟨.f, 4, 4⟩, none, [⟨"vecs.rs", 237, []⟩]⟩,
  ⟨.load_unchecked, ⟨.f, 4, 4⟩, none, [⟨"vecs.rs", 237, []⟩]⟩,
  ⟨.store, ⟨.f, 4, 4⟩, none, [⟨"vecs.rs", 237, []⟩]⟩,
  ⟨.store_unchecked, ⟨.f, 4, 4⟩, none, [⟨"vecs.rs", 237, []⟩]⟩,
  ⟨.coalesce, ⟨.f, 4, 4⟩, none, [⟨"vecs.rs", 237, []⟩]⟩,
  ⟨.extract, ⟨.f, 4, 4⟩, none, [⟨"vecs.rs", 237, []⟩]⟩,
  ⟨.extract_unchecked, ⟨.f, 4, 4⟩, none, [⟨"vecs.rs", 237, []⟩]⟩,
  ⟨.replace, ⟨.f, 4, 4⟩, none, [⟨"vecs.rs", 237, []⟩]⟩,
  ⟨.replace_unchecked, ⟨.f, 4, 4⟩, none, [⟨"vecs.rs", 237, []⟩]⟩,
  ⟨.splat, ⟨.f, 4, 4⟩, none, [⟨"vecs.rs", 237, []⟩]⟩,
  ⟨.default, ⟨.f, 4, 4⟩, none, [⟨"vecs.rs", 237, []⟩]⟩,
  ⟨.product, ⟨.f, 4, 4⟩, none, [⟨"vecs.rs", 237, []⟩]⟩,
  ⟨.scalar_reduce, ⟨.f, 4, 4⟩, none, [⟨"vecs.rs", 237, []⟩]⟩,
  ⟨.load, ⟨.u, 8, 2⟩, none, [⟨"vecs.rs", 238, []⟩]⟩,
  ⟨.load_unchecked, ⟨.u, 8, 2⟩, none, [⟨"vecs.rs", 238, []⟩]⟩,
  ⟨.store, ⟨.u, 8, 2⟩, none, [⟨"vecs.rs", 238, []⟩]⟩,
  ⟨.store_unchecked, ⟨.u, 8, 2⟩, none, [⟨"vecs.rs", 238, []⟩]⟩,
  ⟨.coalesce, ⟨.u, 8, 2⟩, none, [⟨"vecs.rs", 238, []⟩]⟩,
  ⟨.extract, ⟨.u, 8, 2⟩, none, [⟨"vecs.rs", 238, []⟩]⟩,
  ⟨.extract_unchecked, ⟨.u, 8, 2⟩, none, [⟨"vecs.rs", 238, []⟩]⟩,
  ⟨.replace, ⟨.u, 8, 2⟩, none, [⟨"vecs.rs", 238, []⟩]⟩,
  ⟨.replace_unchecked, ⟨.u, 8, 2⟩, none, [⟨"vecs.rs", 238, []⟩]⟩,
  ⟨.splat, ⟨.u, 8, 2⟩, none, [⟨"vecs.rs", 238, []⟩]⟩,
  ⟨.default, ⟨.u, 8, 2⟩, none, [⟨"vecs.rs", 238, []⟩]⟩,
  ⟨.product, ⟨.u, 8, 2⟩, none, [⟨"vecs.rs", 238, []⟩]⟩,
  ⟨.scalar_reduce, ⟨.u, 8, 2⟩, none, [⟨"vecs.rs", 238, []⟩]⟩,
  ⟨.load, ⟨.i, 8, 2⟩, none, [⟨"vecs.rs", 239, []⟩]⟩,
  ⟨.load_unchecked, ⟨.i, 8, 2⟩, none, [⟨"vecs.rs", 239, []⟩]⟩,
  ⟨.store, ⟨.i, 8, 2⟩, none, [⟨"vecs.rs", 239, []⟩]⟩,
  ⟨.store_unchecked, ⟨.i, 8, 2⟩, none, [⟨"vecs.rs", 239, []⟩]⟩,
  ⟨.coalesce, ⟨.i, 8, 2⟩, none, [⟨"vecs.rs", 239, []⟩]⟩,
  ⟨.extract, ⟨.i, 8, 2⟩, none, [⟨"vecs.rs", 239, []⟩]⟩,
  ⟨.extract_unchecked, ⟨.i, 8, 2⟩, none, [⟨"vecs.rs", 239, []⟩]⟩,
  ⟨.replace, ⟨.i, 8, 2⟩, none, [⟨"vecs.rs", 239, []⟩]⟩,
  ⟨.replace_unchecked, ⟨.i, 8, 2⟩, none, [⟨"vecs.rs", 239, []⟩]⟩,
  ⟨.splat, ⟨.i, 8, 2⟩, none, [⟨"vecs.rs", 239, []⟩]⟩,
  ⟨.default, ⟨.i, 8, 2⟩, none, [⟨"vecs.rs", 239, []⟩]⟩,
  ⟨.product, ⟨.i, 8, 2⟩, none, [⟨"vecs.rs", 239, []⟩]⟩,
  ⟨.scalar_reduce, ⟨.i, 8, 2⟩, none, [⟨"vecs.rs", 239, []⟩]⟩,
  ⟨.load, ⟨.f, 8, 2⟩, none, [⟨"vecs.rs", 240, []⟩]⟩,
  ⟨.load_unchecked, ⟨.f, 8, 2⟩, none, [⟨"vecs.rs", 240, []⟩]⟩,
  ⟨.store, ⟨.f, 8, 2⟩, none, [⟨"vecs.rs", 240, []⟩]⟩,
  ⟨.store_unchecked, ⟨.f, 8, 2⟩, none, [⟨"vecs.rs", 240, []⟩]⟩,
  ⟨.coalesce, ⟨.f, 8, 2⟩, none, [⟨"vecs.rs", 240, []⟩]⟩,
  ⟨.extract, ⟨.f, 8, 2⟩, none, [⟨"vecs.rs", 240, []⟩]⟩,
  ⟨.extract_unchecked, ⟨.f, 8, 2⟩, none, [⟨"vecs.rs", 240, []⟩]⟩,
  ⟨.replace, ⟨.f, 8, 2⟩, none, [⟨"vecs.rs", 240, []⟩]⟩,
  ⟨.replace_unchecked, ⟨.f, 8, 2⟩, none, [⟨"vecs.rs", 240, []⟩]⟩,
  ⟨.splat, ⟨.f, 8, 2⟩, none, [⟨"vecs.rs", 240, []⟩]⟩,
  ⟨.default, ⟨.f, 8, 2⟩, none, [⟨"vecs.rs", 240, []⟩]⟩,
  ⟨.product, ⟨.f, 8, 2⟩, none, [⟨"vecs.rs", 240, []⟩]⟩,
  ⟨.scalar_reduce, ⟨.f, 8, 2⟩, none, [⟨"vecs.rs", 240, []⟩]⟩
]

end Faster
