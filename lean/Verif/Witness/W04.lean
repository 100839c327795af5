import Verif.Witness.Common

/-!
# Concrete states meeting the hypotheses: C34 to C46

Every line applies one of the claimed theorems to concrete arguments, with all
its hypotheses proved: none of them is vacuous.
-/

namespace Faster
open Res

set_option maxRecDepth 4000
set_option linter.all false

example := @C34_stride_zip_finalize_iff (BitVec 8) inferInstance 4 release64 [1, 2, 3, 4, 5]
  (Vector.replicate _ 0) 0 (by decide) (by decide) (by decide) (by decide)

example := @C34_stride_zip_finalize_ub (BitVec 8) inferInstance 4 release64 [1, 2, 3]
  (Vector.replicate _ 0) (by decide) (by decide) (by decide) (by decide)

example := @C34_finalize_at (SIMDIter (Slice (BitVec 8) 4) (BitVec 8) 4) _ 4 inferInstance
  inferInstance release64 exIter _ (Vector.replicate _ 0) (fun p => p + 4 ≤ 5) (2 ^ 64 - 4)
  (simdIter_everywhere (represents_slice _ _) _ (by decide) (by decide)) (simdIter_moves _ _ _) 0
  (by decide) (by decide) (by decide)

example := @C34_finalize_exhausted (SIMDIter (Slice (BitVec 8) 4) (BitVec 8) 4) (BitVec 8) 4
  inferInstance inferInstance release64 exIter [1, 2, 3, 4, 5] (Vector.replicate _ 0)
  (fun p => p + 4 ≤ 5) (2 ^ 64 - 4)
  (simdIter_everywhere (represents_slice _ _) _ (by decide) (by decide)) (by decide)

example := @C34_map_finalize_at (SIMDIter (Slice (BitVec 8) 4) (BitVec 8) 4) (BitVec 8) (BitVec 8)
  Unit 4 4 inferInstance inferInstance inferInstance release64 exIter [1, 2, 3, 4, 5]
  (Vector.replicate _ 0) (fun p => p + 4 ≤ 5) (2 ^ 64 - 4)
  (simdIter_everywhere (represents_slice _ _) _ (by decide) (by decide)) (simdIter_moves _ _ _) ()
  (fun _ => (fun _ => (ok ((Vector.replicate _ 0), ())))) 0 (by decide) (by decide)

example := @C34_map_finalize_at_iff (SIMDIter (Slice (BitVec 8) 4) (BitVec 8) 4) (BitVec 8)
  (BitVec 8) Unit 4 4 inferInstance inferInstance inferInstance inferInstance release64 exIter
  [1, 2, 3, 4, 5] (Vector.replicate _ 0) (fun p => p + 4 ≤ 5) (2 ^ 64 - 4)
  (simdIter_everywhere (represents_slice _ _) _ (by decide) (by decide)) (simdIter_moves _ _ _)
  (by decide) () (fun _ => (fun _ => (ok ((Vector.replicate _ 0), ())))) 0 (by decide) (by decide)

example := @C34_zip_finalize_at (SIMDIter (Slice (BitVec 8) 4) (BitVec 8) 4)
  (SIMDIter (Slice (BitVec 8) 4) (BitVec 8) 4 × Unit) (BitVec 8) (Vector (BitVec 8) 4 × Unit) 4
  inferInstance inferInstance inferInstance inferInstance release64 _ exRest _ (2 ^ 64 - 4)
  [1, 2, 3, 4, 5] (Vector.replicate _ 1)
  (simdIter_everywhere (represents_slice _ _) _ (by decide) (by decide)) (simdIter_moves _ _ _) 0
  (by decide) (by decide)

example := @C35 _ 4 2 release64 rfl (by decide) (by decide) (by decide) (by decide) (by decide)
  (Vector.replicate _ 0) (Vector.replicate _ 0)

example := @C35_halves_blend _ 4 2 rfl (by decide) (Vector.replicate _ 0) (Vector.replicate _ 0)

example := @C35_interleaved_fallback (BitVec 8) 4 release64 (by decide) (Vector.replicate _ 0)
  (Vector.replicate _ 0)

example := @C35_interleaved_blend _ 4 2 rfl (by decide) (Vector.replicate _ 0)
  (Vector.replicate _ 0)

example := @C35_partitioned_fallback (BitVec 8) 4 release64 (Vector.replicate _ 0)
  (Vector.replicate _ 0) 1 (by decide)

example := @C35_partitioned_blend _ 4 2 release64 rfl (by decide) (by decide) (by decide)
  (by decide) (Vector.replicate _ 0) (Vector.replicate _ 0) 1 (by decide)

example := @C35_rows mergeRows[0] (by simp)

example := @C36_false _ 4 2 release64 rfl (by decide) (by decide) (by decide) (by decide)
  (Vector.replicate _ 0) (Vector.replicate _ 0)

example := @C36_release_false _ 2 2 release64 (by decide) rfl (by decide) (by decide) (by decide)
  (Vector.replicate _ 0) (Vector.replicate _ 0) 4 (by decide) (by decide)

example := @C36_partial _ 4 2 release64 rfl (by decide) (by decide) (by decide) (by decide)
  (Vector.replicate _ 0) (Vector.replicate _ 0) 1

example := @C36_exact _ 4 2 release64 rfl (by decide) (by decide) (by decide) (by decide)
  (by decide) (Vector.replicate _ 0) (Vector.replicate _ 0) 1 (by decide)

example := @C37_partial _ 4 2 release64 rfl (by decide) (by decide) (by decide) (by decide) 1 1 1
  (by decide)

example := @C37_constant_patterns (BitVec 8) 8 4 1 1 1 (by decide)

example := @C37_partition_mask _ 4 2 release64 rfl (by decide) (by decide) (by decide) (by decide)
  1 (by decide)

example := @C37_partition _ 4 2 release64 rfl (by decide) (by decide) (by decide) (by decide) 1 1
  1 (by decide)

example := @C37_large_offset 32 4 debug64 1 0 32 (by decide)

example := @C37_false _ 2 2 release64 (by decide) rfl (by decide) (by decide) (by decide) 1 1 4
  (by decide) (by decide)

example := @C37_exact _ 4 2 release64 rfl (by decide) (by decide) (by decide) (by decide)
  (by decide) 1 1 1 (by decide)

example := @C38 swapRows[0] (by simp) true (Vector.replicate _ 0)

example := @C38_bytes _ 4 2 rfl (Vector.replicate _ 0) 1 1 (by decide) (by decide)

example := @C38_involution swapRows[0] (by simp) (Vector.replicate _ 0)

example := @C38_conversions (BitVec 8) true (fun x => x) (by decide) 1

example := @C39_add_optimized satAddRows[0] (by simp) (Vector.replicate _ 0)
  (Vector.replicate _ 0)

example := @C39_sub_optimized satSubRows[0] (by simp) (Vector.replicate _ 0)
  (Vector.replicate _ 0)

example := @C39_add_fallback release64 satAddRows[0] (by simp) (Vector.replicate _ 0)
  (Vector.replicate _ 0)

example := @C39_sub_fallback release64 satSubRows[0] (by simp) (Vector.replicate _ 0)
  (Vector.replicate _ 0)

example := @C40_hadd_release release64 (by decide) haddRows[0] (by simp) (by decide) (by decide)
  (Vector.replicate _ 0) (Vector.replicate _ 0)

example := @C40_hsub_release release64 rfl hsubRows[0] (by simp) (by decide) rfl
  (Vector.replicate _ 1) (Vector.replicate _ 1)

example := @C40_saturating_hadd release64 satHaddRows[0] (by simp) rfl (Vector.replicate _ 1)
  (Vector.replicate _ 1)

example := @C40_saturating_hsub release64 satHsubRows[0] (by simp) rfl (Vector.replicate _ 1)
  (Vector.replicate _ 1)

example := @C40_float_fallback 8 (fun _ => (fun _ => 1)) haddRows[0] (by simp) (by decide)
  (Vector.replicate _ 0) (Vector.replicate _ 0)

example := @C40_optimized_saturating 4 (by decide) (Vector.replicate _ 0) (Vector.replicate _ 0)

example := @C41_fallback_release 8 4 release64 (by decide) .i (Vector.replicate _ 0)

example := @C41_fallback_fits 8 4 release64 .i (by decide) (Vector.replicate _ 0) (by decide)

example := @C41_i16x16_partial release64 (Vector.replicate _ 0) (by decide)

example := @C41_i32x8_partial release64 (Vector.replicate _ 0) (by decide)

example := @C42_fallback 8 4 release64 .i (by decide) (by decide) (by decide)
  (Vector.replicate _ 0)

example := @C43_fallback 16 8 4 release64 (by decide) (by decide) (by decide)
  (Vector.replicate _ 0)

example := @C43_count_zeroes 8 4 release64 1 (by decide) (by decide) (Vector.replicate _ 0) (ok 0)
  (by decide)

example := @C44_int_fallback absRows[4] (by simp) (by decide) (Vector.replicate _ 0)

example := @C44_int_optimized absRows[4] (by simp) (by decide) _ rfl (Vector.replicate _ 0)

example := @C44_float_fallback absRows[0] (by simp) (by decide) (Vector.replicate _ 0)

example := @C44_float_optimized absRows[0] (by simp) (by decide) _ rfl (Vector.replicate _ 0)

example := @C44_agree absRows[0] (by simp) _ rfl (Vector.replicate _ 0)

example := @C45_order_fallback upcastRows[0] (by simp) (fun _ => 1) (Vector.replicate _ 0)

example := @C45_order_optimized upcastRows[0] (by simp) _ rfl (fun _ => 1) (Vector.replicate _ 0)

example := @C45_fallback upcastRows[0] (by simp) (by decide) (fun _ => 1) (Vector.replicate _ 0)

example := @C45_optimized upcastRows[0] (by simp) (by decide) _ rfl (fun _ => 1)
  (Vector.replicate _ 0)

example := @C46_fallback_partial downcastRows[0] (by simp) (by decide) (by decide)
  (Vector.replicate _ 0) (Vector.replicate _ 0)

example := @C46_u64 downcastRows[2] (by simp) (by decide) (by decide) (Vector.replicate _ 0)
  (Vector.replicate _ 0)

example := @C46_u64_iff downcastRows[2] (by simp) (by decide) (by decide) (Vector.replicate _ 0)
  (Vector.replicate _ 0)

example := @C46_packs128_partial downcastRows[0] (by simp) _ rfl (by decide) (by decide)
  (Vector.replicate _ 0) (Vector.replicate _ 0)

example := @C46_packus128_partial downcastRows[5] (by simp) _ rfl (by decide) (by decide)
  (Vector.replicate _ 0) (Vector.replicate _ 0)

end Faster
