import Verif.Witness.Common

/-!
# Concrete states meeting the hypotheses: C23 to C34

Every line applies one of the claimed theorems to concrete arguments, with all
its hypotheses proved: none of them is vacuous.
-/

namespace Faster
open Res

set_option maxRecDepth 4000
set_option linter.all false

example := @C23_end_exact (BitVec 8) (BitVec 8) inferInstance 4 4 release64 [1, 2, 3, 4, 5]
  [1, 2, 3, 4, 5] (Vector.replicate _ 0) (Vector.replicate _ 0) 0 1 (by decide) (by decide)
  (by decide)

example := @C23_ub_iff (BitVec 8) (BitVec 8) inferInstance 4 4 release64 [1, 2, 3, 4, 5]
  [1, 2, 3, 4, 5] (Vector.replicate _ 0) (Vector.replicate _ 0) 0 1 (by decide) (by decide)
  (by decide) (by decide) (by decide)

example := @C24_zip_do_each (BitVec 8) (BitVec 8) inferInstance 4 release64 [1, 2, 3, 4, 5]
  [1, 2, 3, 4, 5] (Vector.replicate _ 0) (Vector.replicate _ 0) Unit 100 ()
  (fun _ => (fun _ => (ok ((), ())))) (by decide) (by decide) (by decide) (by decide)

example := @C24_zip_reduce (BitVec 8) (BitVec 8) inferInstance 4 release64 [1, 2, 3, 4, 5]
  [1, 2, 3, 4, 5] (Vector.replicate _ 0) (Vector.replicate _ 0) Nat Unit 100 1 ()
  (fun _ => (fun _ => (fun _ => (ok (1, ()))))) (by decide) (by decide) (by decide) (by decide)

example := @C24_zip_do_each_general (SIMDIter (Slice (BitVec 8) 4) (BitVec 8) 4)
  (SIMDIter (Slice (BitVec 8) 4) (BitVec 8) 4 × Unit) (BitVec 8) (Vector (BitVec 8) 4 × Unit)
  (BitVec 8 × Unit) 4 inferInstance inferInstance inferInstance inferInstance inferInstance
  release64 exFirst exRest exRows exDv (fun p => p + 4 ≤ 5) Unit
  (simdIter_driver (represents_slice _ _) _ (by decide) (by decide)) (by decide)
  ⟨repIter_simdIter _ _ _ _ (by decide) (by decide), trivial⟩ (by decide) 100 ()
  (fun _ => (fun _ => (ok ((), ())))) (by decide)

example := @C24_zip_reduce_general (SIMDIter (Slice (BitVec 8) 4) (BitVec 8) 4)
  (SIMDIter (Slice (BitVec 8) 4) (BitVec 8) 4 × Unit) (BitVec 8) (Vector (BitVec 8) 4 × Unit)
  (BitVec 8 × Unit) 4 inferInstance inferInstance inferInstance inferInstance inferInstance
  release64 exFirst exRest exRows exDv (fun p => p + 4 ≤ 5) Nat Unit
  (simdIter_driver (represents_slice _ _) _ (by decide) (by decide)) (by decide)
  ⟨repIter_simdIter _ _ _ _ (by decide) (by decide), trivial⟩ (by decide) 100 1 ()
  (fun _ => (fun _ => (fun _ => (ok (1, ()))))) (by decide)

example := @C24_calls_columns (SIMDIter (Slice (BitVec 8) 4) (BitVec 8) 4 × Unit) (BitVec 8)
  (Vector (BitVec 8) 4 × Unit) (BitVec 8 × Unit) 4 inferInstance inferInstance (by decide) exRows
  exDv

example := @C24_do_each_at (SIMDIter (Slice (BitVec 8) 4) (BitVec 8) 4)
  (SIMDIter (Slice (BitVec 8) 4) (BitVec 8) 4 × Unit) (BitVec 8) (Vector (BitVec 8) 4 × Unit)
  (BitVec 8 × Unit) 4 inferInstance inferInstance inferInstance inferInstance inferInstance
  release64 exFirst exRest exRows exDv (fun p => p + 4 ≤ 5) (2 ^ 64 - 4) Unit
  (simdIter_everywhere (represents_slice _ _) _ (by decide) (by decide)) (by decide)
  ⟨repIter_simdIter _ _ _ _ (by decide) (by decide), trivial⟩ (by decide) 100 ()
  (fun _ => (fun _ => (ok ((), ())))) 0 (by decide) 1 (by decide) (by decide) (by decide)

example := @C24_reduce_at (SIMDIter (Slice (BitVec 8) 4) (BitVec 8) 4)
  (SIMDIter (Slice (BitVec 8) 4) (BitVec 8) 4 × Unit) (BitVec 8) (Vector (BitVec 8) 4 × Unit)
  (BitVec 8 × Unit) 4 inferInstance inferInstance inferInstance inferInstance inferInstance
  release64 exFirst exRest exRows exDv (fun p => p + 4 ≤ 5) (2 ^ 64 - 4) Nat Unit
  (simdIter_everywhere (represents_slice _ _) _ (by decide) (by decide)) (by decide)
  ⟨repIter_simdIter _ _ _ _ (by decide) (by decide), trivial⟩ (by decide) 100 1 ()
  (fun _ => (fun _ => (fun _ => (ok (1, ()))))) 0 (by decide) 1 (by decide) (by decide)
  (by decide)

example := @C25_stride_into (BitVec 8) 4 [1, 2, 3, 4, 5] _ [(Vector.replicate _ 0)] rfl

example := @C25_stride_into_panics (BitVec 8) 4 [1, 2, 3, 4, 5] 2 [(Vector.replicate _ 0)]
  (by decide)

example := @C25_stride_calls (BitVec 8) inferInstance 4 Unit release64 100 [1, 2, 3, 4, 5] 2 1
  (by decide) (Vector.replicate _ 0) () (fun _ => (fun _ => (ok ((), ())))) (by decide)
  (by decide) (by decide)

example := @C25_stride_reduce (BitVec 8) inferInstance 4 Nat Unit release64 100 [1, 2, 3, 4, 5] 2
  1 (by decide) (Vector.replicate _ 0) 1 () (fun _ => (fun _ => (fun _ => (ok (1, ())))))
  (by decide) (by decide) (by decide)

example := @C25_stride_collect_any (BitVec 8) inferInstance 4 (BitVec 8) Unit inferInstance 4
  release64 100 [1, 2, 3, 4, 5] 2 1 (by decide) (Vector.replicate _ 0) ()
  (fun _ => (fun _ => (ok ((Vector.replicate _ 0), ())))) (by decide) (by decide) (by decide)
  (by decide) (by decide) (by decide) (by decide) (by decide)

example := @C25_stride_collect (BitVec 8) inferInstance 4 (BitVec 8) inferInstance release64 100
  [1, 2, 3, 4, 5] 2 1 (by decide) (Vector.replicate _ 0) (fun _ => 1) (by decide) (by decide)
  (by decide) (by decide) (by decide) (by decide)

example := @C26_stride_delivered (BitVec 8) [1, 2, 3, 4, 5] 2 1 (by decide)

example := @C26_stride_complete_partial (BitVec 8) [1, 2, 3, 4] 2 (by decide) (by decide)

example := @C27_stride_next_safe (BitVec 8) inferInstance 4 release64 [1, 2, 3, 4, 5] 2 1
  (by decide) (Vector.replicate _ 0) 0 (by decide) (by decide) (by decide)

example := @C27_stride_load_partial (BitVec 8) inferInstance 4 release64 [1, 2, 3, 4, 5] 2 1 0
  (Vector.replicate _ 0) 1 (by decide) (by decide) (by decide) (by decide)

example := @C27_load_release (BitVec 8) inferInstance 4 release64 [1, 2, 3, 4, 5] 2 1 0
  (Vector.replicate _ 0) 1 (by decide) (by decide)

example := @C28_zip_strides (BitVec 8) (BitVec 8) inferInstance inferInstance 4 release64 8
  [1, 2, 3, 4, 5] (fun _ => (Vector.replicate _ 0)) (by decide) (by decide) 100 (fun _ => 1)
  (by decide) (by decide) (by decide) (by decide)

example := @C29_stride_zip_calls (BitVec 8) inferInstance 4 Unit release64 100 [1, 2, 3, 4, 5]
  (Vector.replicate _ 0) () (fun _ => (fun _ => (ok ((), ())))) (by decide) (by decide)
  (by decide)

example := @C29_stride_zip_collect (BitVec 8) inferInstance 4 (BitVec 8) Unit inferInstance 4
  release64 100 [1, 2, 3, 4, 5] (Vector.replicate _ 0) ()
  (fun _ => (fun _ => (ok ((Vector.replicate _ 0), ())))) (by decide) (by decide) (by decide)
  (by decide) (by decide) (by decide) (by decide) (by decide)

example := @C29_stride_zip_lanewise (BitVec 8) inferInstance 4 (BitVec 8) inferInstance release64
  100 [1, 2, 3, 4, 5] (Vector.replicate _ 0) (fun _ => (fun _ => 1)) (by decide) (by decide)
  (by decide) (by decide) (by decide) (by decide)

example := @C29_stride_zip_partial (BitVec 8) inferInstance 2 (BitVec 8) inferInstance release64
  100 [1, 2, 3, 4] (Vector.replicate _ 0) (fun _ => (fun _ => 1)) (by decide) (by decide)
  (by decide) (by decide) (by decide) (by decide) (by decide)

example := @C29_tail_extra 4 1 (by decide) (by decide)

example := @C29_tail_lost 4 5 (by decide) (by decide)

example := @C29_tail_default (BitVec 8) 4 (BitVec 8) [1, 2, 3, 4] (Vector.replicate _ 0)
  (fun _ => (fun _ => 1)) (by decide) (by decide) (by decide)

example := @C30_adapter_exact (BitVec 8) 4 release64 [1, 2, 3, 4, 5] (Vector.replicate _ 0)
  (by decide) (by decide)

example := @C30_adapter_one_vector_partial (BitVec 8) 4 release64 [1, 2, 3, 4]
  (Vector.replicate _ 0) (by decide) (by decide) (by decide)

example := @C30_adapter_loses (BitVec 8) 4 release64 [1, 2, 3, 4, 5] (Vector.replicate _ 0)
  (by decide) (by decide) (by decide) (by decide)

example := @C31_collect_all_always_bad (BitVec 8) 4 release64 100 [1, 2, 3, 4, 5]
  (Vector.replicate _ 0) (by decide) (by decide) (by decide) (by decide)

example := @C31_collect_all_empty_partial (BitVec 8) 4 release64 100 (Vector.replicate _ 0)
  (by decide) (by decide) (by decide)

example := @C31_driver (SIMDIter (Slice (BitVec 8) 4) (BitVec 8) 4) Unit (BitVec 8) (BitVec 8) 4 4
  inferInstance inferInstance inferInstance inferInstance release64 exIter [1, 2, 3, 4, 5]
  (Vector.replicate _ 0) (fun p => p + 4 ≤ 5)
  (simdIter_driver (represents_slice _ _) _ (by decide) (by decide)) 100 ()
  (fun _ => (fun _ => (ok ((Vector.replicate _ 0), ())))) 0 (by decide) (by decide) (by decide)
  (by decide) (by decide) (by decide) (by decide) (by decide)

example := @C31_ok_iff (SIMDIter (Slice (BitVec 8) 4) (BitVec 8) 4) (BitVec 8) (BitVec 8) 4 4
  inferInstance inferInstance inferInstance inferInstance release64 exIter [1, 2, 3, 4, 5]
  (Vector.replicate _ 0) (fun p => p + 4 ≤ 5)
  (simdIter_driver (represents_slice _ _) _ (by decide) (by decide)) 100
  (fun _ => (Vector.replicate _ 0)) (by decide) (by decide) (by decide) (by decide) (by decide)
  (by decide)

example := @C31_zip (SIMDIter (Slice (BitVec 8) 4) (BitVec 8) 4)
  (SIMDIter (Slice (BitVec 8) 4) (BitVec 8) 4 × Unit) (BitVec 8) (Vector (BitVec 8) 4 × Unit)
  (BitVec 8 × Unit) 4 inferInstance inferInstance inferInstance inferInstance inferInstance
  release64 exFirst exRest exRows exDv (fun p => p + 4 ≤ 5) (BitVec 8) Unit inferInstance 4
  (simdIter_driver (represents_slice _ _) _ (by decide) (by decide)) (by decide)
  ⟨repIter_simdIter _ _ _ _ (by decide) (by decide), trivial⟩ (by decide) 100 ()
  (fun _ => (fun _ => (ok ((Vector.replicate _ 0), ())))) 0 (by decide) (by decide) (by decide)
  (by decide) (by decide) (by decide) (by decide)

example := @C31_at (SIMDIter (Slice (BitVec 8) 4) (BitVec 8) 4) (BitVec 8) (BitVec 8) Unit 4 4
  inferInstance inferInstance inferInstance inferInstance release64 exIter [1, 2, 3, 4, 5]
  (Vector.replicate _ 0) (fun p => p + 4 ≤ 5) (2 ^ 64 - 4)
  (simdIter_everywhere (represents_slice _ _) _ (by decide) (by decide)) 100 ()
  (fun _ => (fun _ => (ok ((Vector.replicate _ 0), ())))) 0 (by decide) (by decide) (by decide)
  (by decide) (by decide) 1 (by decide) (by decide) (by decide) (by decide)

example := @C32_fill_all (BitVec 8) (BitVec 8) Unit inferInstance inferInstance 16 4 release64 100
  [1, 2, 3, 4, 5, 6, 7, 8] (Vector.replicate _ 0) ()
  (fun _ => (fun _ => (ok ((Vector.replicate _ 0), ())))) [1, 2, 3, 4] (by decide) (by decide)
  (by decide) (by decide) (by decide) (by decide) (by decide)

example := @C32_driver (SIMDIter (Slice (BitVec 8) 4) (BitVec 8) 4) Unit (BitVec 8) (BitVec 8) 4 4
  inferInstance inferInstance inferInstance inferInstance release64 exIter [1, 2, 3, 4, 5]
  (Vector.replicate _ 0) (fun p => p + 4 ≤ 5)
  (simdIter_driver (represents_slice _ _) _ (by decide) (by decide)) 100 ()
  (fun _ => (fun _ => (ok ((Vector.replicate _ 0), ())))) [1, 2, 3, 4, 5] 0 (by decide)
  (by decide) (by decide) (by decide) (by decide) (by decide) (by decide) (by decide)

example := @C32_zip (SIMDIter (Slice (BitVec 8) 4) (BitVec 8) 4)
  (SIMDIter (Slice (BitVec 8) 4) (BitVec 8) 4 × Unit) (BitVec 8) (Vector (BitVec 8) 4 × Unit)
  (BitVec 8 × Unit) 4 inferInstance inferInstance inferInstance inferInstance inferInstance
  release64 exFirst exRest exRows exDv (fun p => p + 4 ≤ 5) (BitVec 8) Unit inferInstance 4
  (simdIter_driver (represents_slice _ _) _ (by decide) (by decide)) (by decide)
  ⟨repIter_simdIter _ _ _ _ (by decide) (by decide), trivial⟩ (by decide) 100 ()
  (fun _ => (fun _ => (ok ((Vector.replicate _ 0), ())))) [1, 2, 3, 4, 5] 0 (by decide)
  (by decide) (by decide) (by decide) (by decide) (by decide) (by decide)

example := @C32_at (SIMDIter (Slice (BitVec 8) 4) (BitVec 8) 4) (BitVec 8) (BitVec 8) Unit 4 4
  inferInstance inferInstance inferInstance inferInstance release64 exIter [1, 2, 3, 4, 5]
  (Vector.replicate _ 0) (fun p => p + 4 ≤ 5) (2 ^ 64 - 4)
  (simdIter_everywhere (represents_slice _ _) _ (by decide) (by decide)) 100 ()
  (fun _ => (fun _ => (ok ((Vector.replicate _ 0), ())))) [1, 2, 3, 4, 5] 0 (by decide)
  (by decide) (by decide) (by decide) (by decide) 1 (by decide) (by decide) (by decide)
  (by decide)

example := @C33_lengths_slice_partial (BitVec 8) 4 release64 [1, 2, 3, 4, 5]
  (Vector.replicate _ 0) 0 (by decide)

example := @C33_stride_lengths (BitVec 8) inferInstance 4 release64 [1, 2, 3, 4, 5] 2 1
  (by decide) (Vector.replicate _ 0) 0 (by decide) (by decide)

example := @C33_map_scalar_len_wrong (BitVec 8) (BitVec 8) Unit 4 4 release64 [1, 2, 3, 4, 5]
  (Vector.replicate _ 0) () (fun _ => (fun _ => (ok ((Vector.replicate _ 0), ())))) (by decide)
  (by decide)

example := @C33_zip_scalar_len_wrong (BitVec 8) (BitVec 8) inferInstance 4 release64
  [1, 2, 3, 4, 5] [1, 2, 3, 4, 5] (Vector.replicate _ 0) (Vector.replicate _ 0) (by decide)
  (by decide) (by decide)

example := @C33_stride_zip_lengths (BitVec 8) inferInstance 4 release64 [1, 2, 3, 4, 5]
  (Vector.replicate _ 0) 0 (by decide) (by decide)

example := @C34_advance_partial (BitVec 8) 4 release64 [1, 2, 3, 4, 5] (Vector.replicate _ 0) 0 1
  (by decide) (by decide) (by decide)

example := @C34_finalize_partial (BitVec 8) 4 release64 [1, 2, 3, 4, 5] (Vector.replicate _ 0) 0
  (by decide) (by decide) (by decide)

example := @C34_stride_advance (BitVec 8) inferInstance 4 release64 [1, 2, 3, 4, 5] 2 1
  (by decide) (Vector.replicate _ 0) 0 8 (by decide)

example := @C34_stride_from (BitVec 8) inferInstance 4 release64 [1, 2, 3, 4, 5] 2 1 (by decide)
  (Vector.replicate _ 0) 0 (by decide) (by decide) (by decide)

example := @C34_map_finalize_wrong (BitVec 8) (BitVec 8) Unit inferInstance 4 4 release64
  [1, 2, 3, 4, 5] (Vector.replicate _ 0) ()
  (fun _ => (fun _ => (ok ((Vector.replicate _ 0), ())))) (by decide) (by decide)

example := @C34_map_not_finished (BitVec 8) (BitVec 8) inferInstance inferInstance 2 4 release64
  [1, 2, 3, 4, 5] (Vector.replicate _ 0) (fun _ => (Vector.replicate _ 0)) (by decide) (by decide)
  (by decide)

example := @C34_zip_finalize_wrong (BitVec 8) (BitVec 8) inferInstance 2 debug64 [1, 2, 3, 4, 5]
  [1, 2, 3, 4, 5] (Vector.replicate _ 0) (Vector.replicate _ 0) (by decide) (by decide)
  (by decide) (by decide)

example := @C34_stride_zip_advance (BitVec 8) inferInstance 4 release64 [1, 2, 3, 4, 5]
  (Vector.replicate _ 0) 0 8 (by decide)

example := @C34_map_advance_partial (BitVec 8) (BitVec 8) inferInstance inferInstance 4 4
  release64 [1, 2, 3, 4, 5] (Vector.replicate _ 0) 0 1 (fun _ => (Vector.replicate _ 0))
  (by decide) (by decide) (by decide)

example := @C34_map_finalize (BitVec 8) (BitVec 8) Unit inferInstance 4 4 release64
  [1, 2, 3, 4, 5] (Vector.replicate _ 0) ()
  (fun _ => (fun _ => (ok ((Vector.replicate _ 0), ())))) 0 (by decide) (by decide) (by decide)

example := @C34_map_finalize_iff (BitVec 8) (BitVec 8) Unit inferInstance inferInstance 4 4
  release64 [1, 2, 3, 4, 5] (Vector.replicate _ 0) ()
  (fun _ => (fun _ => (ok ((Vector.replicate _ 0), ())))) 0 (by decide) (by decide) (by decide)

example := @C34_map_finalize_ub (BitVec 8) (BitVec 8) Unit inferInstance inferInstance 4 4
  release64 [1, 2, 3, 4] (Vector.replicate _ 0) ()
  (fun _ => (fun _ => (ok ((Vector.replicate _ 0), ())))) 0 (by decide) (by decide) (by decide)
  (by decide)

example := @C34_zip_finalize (BitVec 8) (SIMDIter (Slice (BitVec 8) 4) (BitVec 8) 4 × Unit)
  (Vector (BitVec 8) 4 × Unit) inferInstance 4 inferInstance release64 [1, 2, 3, 4, 5]
  (Vector.replicate _ 0) exRest 0 (by decide) (by decide) (by decide)

example := @C34_stride_zip_finalize (BitVec 8) inferInstance 4 release64 [1, 2, 3, 4, 5]
  (Vector.replicate _ 0) 0 (some (Vector.replicate _ 1)) 0 (by decide) (by decide) (by decide)

end Faster
