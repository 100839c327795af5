import Verif.Witness.Common

/-!
# Concrete states meeting the hypotheses: C127 to C135

Every line applies one of the claimed theorems to concrete arguments, with all
its hypotheses proved: none of them is vacuous.
-/

namespace Faster
open Res

set_option maxRecDepth 4000
set_option linter.all false

example := @C127_hop_float 32 4 (by decide) true rfl _
  (by intros; first | rfl | simp | omega | decide) 1 1 1 1 1 1 (by decide)

example := @C127_abs
  (.mk (.ofByteArray (.mk default) (by decide)) 1 .i 1 1 (some .sse) (some .mm256_abs_epi16) 1 [1])
  rfl 1 1 (by decide) (by decide)

example := @C127_popcnt _ 4 release64 1 rfl (by decide) (by decide) _
  (by intros; first | rfl | simp | omega | decide)

example := @C127_sum_partial 8 4 release64 .i _ _ (by constructor <;> decide)
  (by constructor <;> decide) (by decide) (by decide) (by decide) (by decide) 1 rfl
  (by intros; first | rfl | simp | omega | decide)

example := @C127_sum_release 8 4 release64 rfl .i _ _ (by constructor <;> decide)
  (by constructor <;> decide) (by decide) (by decide) (by decide) (by simp) 1

example := @C127_sum_once 8 4 release64 .i (by decide) (by decide) (fun _ => (ok 1))
  (fun _ => (ok 1)) 100

example := @C127_sum_tests 8 4 release64 .i (by decide) (by decide) _ _
  (by constructor <;> decide) (by constructor <;> decide) (by decide) (by decide) 100

example := @C127_sum_float 32 4 release64 (by decide) _ _ (C63_fallback _).1 rfl (by decide) 1 1 1
  (by decide) (by decide) (by decide)

example := @C128_slice (BitVec 8) Unit 4 release64 100 [1, 2, 3, 4, 5] (Vector.replicate _ 1) 0 ()
  (fun _ => (fun _ => (ok ((), ())))) (by decide) (by decide) (by decide) (by decide)

example := @C128_map (BitVec 8) Unit 4 (BitVec 8) Unit 4 inferInstance inferInstance release64 100
  [1, 2, 3, 4, 5] (Vector.replicate _ 1) () ()
  (fun _ => (fun _ => (ok ((Vector.replicate _ 1), ())))) (fun _ => (fun _ => (ok ((), ()))))
  (by decide) (by decide) (by decide)

example := @C128_zip (BitVec 8) (BitVec 8) Unit 4 inferInstance release64 100 [1, 2, 3, 4, 5]
  [1, 2, 3, 4, 5] (Vector.replicate _ 1) (Vector.replicate _ 1) ()
  (fun _ => (fun _ => (ok ((), ())))) rfl (by decide) (by decide) (by decide)

example := @C128_stride_zip (BitVec 8) Unit 4 inferInstance release64 100 [1, 2, 3, 4, 5]
  (Vector.replicate _ 1) () (fun _ => (fun _ => (ok ((), ())))) (by decide) (by decide)
  (by decide)

example := @C128_stride_exact (BitVec 8) Unit 4 inferInstance release64 100 [1, 2, 3, 4, 5] 2 1
  (by decide) (Vector.replicate _ 1) () (fun _ => (fun _ => (ok ((), ())))) (by decide)
  (by decide) (by decide)

example := @C128_stride_missed 2 1 1 4 (by decide) (by decide)

example := @C128_stride_partial (BitVec 8) Unit 4 inferInstance release64 100 [1, 2, 3, 4, 5] 2 1
  (by decide) (Vector.replicate _ 1) () (fun _ => (fun _ => (ok ((), ())))) (by decide)
  (by decide) (by decide) (by decide)

example := @C128_stride_loses (BitVec 8) Unit 4 inferInstance release64 100 [1, 2, 3, 4] 1 0
  (by decide) (Vector.replicate _ 1) () (fun _ => (fun _ => (ok ((), ())))) (by decide)
  (by decide) (by decide) rfl (by decide)

example := @C128_zip_strides (BitVec 8) Unit 4 inferInstance release64 100 [1, 2, 3, 4, 5] 2 1 1
  (by decide) (by decide) (Vector.replicate _ 1) (Vector.replicate _ 1) ()
  (fun _ => (fun _ => (ok ((), ())))) (by decide) (by decide) (by decide)

example := @C128_adapter_exact (BitVec 8) Unit 4 release64 100 [1, 2, 3, 4, 5]
  (Vector.replicate _ 1) () (fun _ => (fun _ => (ok ((), ())))) (by decide) (by decide)
  (by decide)

example := @C128_adapter_partial (BitVec 8) Unit 4 release64 100 [1, 2, 3, 4, 5]
  (Vector.replicate _ 1) () (fun _ => (fun _ => (ok ((), ())))) (by decide) (by decide)
  (by decide) (by decide)

example := @C128_scalar_load (BitVec 8) 4 inferInstance inferInstance release64 [1, 2, 3, 4, 5]
  ((Vector.replicate _ 1), (Vector.replicate _ 1)) [1] (by decide)

example := @C128_vector_load (BitVec 8) 4 inferInstance inferInstance release64 [1, 2, 3, 4, 5]
  ((Vector.replicate _ 1), (Vector.replicate _ 1)) [1] (by decide) (by decide) (by decide)

example := @C128_vector_iter (BitVec 8) 4 inferInstance release64 100 [1, 2, 3, 4, 5]
  ((Vector.replicate _ 1), (Vector.replicate _ 1)) (fun _ => true) (fun _ => true) (by decide)
  (by decide) (by decide)

example := @C128_vector_iter_test release64 (by decide) (fun _ => true) (fun _ => true)

example := @C129_merge release64 (by decide) mergeRows[0] (by simp) true true true true 1 1

example := @C129_merge_float release64 (by decide) mergeRows[6] (by simp) (by decide) true true
  true true 1 1

example := @C129_transmute 16 4 rfl (Vector.replicate _ 1)

example := @C129_transmute_float 32 4 (by decide) rfl (Vector.replicate _ 1)

example := @C129_product 8 release64 .i (by decide) 4 1 1

example := @C129_product_ones 8 release64 .i (by decide) 4

example := @C129_product_float 32 (by decide) 4 1 (by decide) 1

example := @C129_max_min _ _ release64 cmpRows[13] rfl rfl rfl _ (.inr ⟨by simp, rfl⟩)

example := @C130_collect (SIMDIter (Slice (BitVec 8) 4) (BitVec 8) 4) (BitVec 8) (BitVec 8) Unit 4
  4 inferInstance inferInstance inferInstance inferInstance release64 _ [1, 2, 3, 4, 5]
  (Vector.replicate _ 1) _ (simdIter_driver (represents_slice _ _) _ (by decide) (by decide)) 100
  () (fun _ => (fun _ => (ok ((Vector.replicate _ 1), ())))) (by decide) (by decide) (by decide)
  (by decide) (by decide) (by decide) (by decide)

example := @C130_fill (SIMDIter (Slice (BitVec 8) 4) (BitVec 8) 4) (BitVec 8) (BitVec 8) Unit 4 4
  inferInstance inferInstance inferInstance inferInstance release64 _ [1, 2, 3, 4, 5]
  (Vector.replicate _ 1) _ (simdIter_driver (represents_slice _ _) _ (by decide) (by decide)) 100
  () (fun _ => (fun _ => (ok ((Vector.replicate _ 1), ())))) [1, 2, 3, 4, 5] (by decide)
  (by decide) (by decide) (by decide) (by decide) (by decide) (by decide) (by decide)

example := @C130_collect_over (SIMDIter (Slice (BitVec 8) 4) (BitVec 8) 4) (BitVec 8) (BitVec 8)
  Unit 4 2 inferInstance inferInstance inferInstance inferInstance release64 _ [1, 2, 3, 4, 5]
  (Vector.replicate _ 1) _ (simdIter_driver (represents_slice _ _) _ (by decide) (by decide)) 100
  () (fun _ => (fun _ => (ok ((Vector.replicate _ 1), ())))) (by decide) (by decide) (by decide) _
  rfl (by decide) (by decide) (by decide)

example := @C130_fill_over (SIMDIter (Slice (BitVec 8) 4) (BitVec 8) 4) (BitVec 8) (BitVec 8) Unit
  4 2 inferInstance inferInstance inferInstance inferInstance release64 _ [1, 2, 3, 4, 5]
  (Vector.replicate _ 1) _ (simdIter_driver (represents_slice _ _) _ (by decide) (by decide)) 100
  () (fun _ => (fun _ => (ok ((Vector.replicate _ 1), ())))) [1, 2, 3, 4, 5] (by decide)
  (by decide) (by decide) _ rfl (by decide) (by decide) (by decide) (by decide)

example := @C130_zip_collect (SIMDIter (Slice (BitVec 8) 4) (BitVec 8) 4)
  (SIMDIter (Slice (BitVec 8) 4) (BitVec 8) 4 × Unit) (BitVec 8) (Vector (BitVec 8) 4 × Unit)
  (BitVec 8 × Unit) 4 inferInstance inferInstance inferInstance inferInstance inferInstance
  release64 exFirst exRest exRows exDv (fun p => p + 4 ≤ 5) (BitVec 8) Unit inferInstance 4
  (simdIter_driver (represents_slice _ _) _ (by decide) (by decide)) (by decide)
  ⟨repIter_simdIter _ _ _ _ (by decide) (by decide), trivial⟩ (by decide) 100 ()
  (fun _ => (fun _ => (ok ((Vector.replicate _ 1), ())))) (by decide) (by decide) (by decide)
  (by decide) (by decide) (by decide)

example := @C130_zip_collect_over (SIMDIter (Slice (BitVec 8) 4) (BitVec 8) 4)
  (SIMDIter (Slice (BitVec 8) 4) (BitVec 8) 4 × Unit) (BitVec 8) (Vector (BitVec 8) 4 × Unit)
  (BitVec 8 × Unit) 4 inferInstance inferInstance inferInstance inferInstance inferInstance
  release64 exFirst exRest exRows exDv (fun p => p + 4 ≤ 5) (BitVec 8) Unit inferInstance 2
  (simdIter_driver (represents_slice _ _) _ (by decide) (by decide)) (by decide)
  ⟨repIter_simdIter _ _ _ _ (by decide) (by decide), trivial⟩ (by decide) 100 ()
  (fun _ => (fun _ => (ok ((Vector.replicate _ 1), ())))) (by decide) (by decide) _ rfl
  (by decide) (by decide) (by decide)

example := @C130_zip_outcome (SIMDIter (Slice (BitVec 8) 4) (BitVec 8) 4)
  (SIMDIter (Slice (BitVec 8) 4) (BitVec 8) 4 × Unit) (BitVec 8) (BitVec 8)
  (Vector (BitVec 8) 4 × Unit) (BitVec 8 × Unit) 4 4 inferInstance inferInstance inferInstance
  inferInstance inferInstance inferInstance release64 exFirst exRest exRows exDv
  (fun p => p + 4 ≤ 5) (simdIter_driver (represents_slice _ _) _ (by decide) (by decide))
  (by decide) ⟨repIter_simdIter _ _ _ _ (by decide) (by decide), trivial⟩ (by decide) 100
  (fun _ => (Vector.replicate _ 1)) (by decide) (by decide) _ rfl (by decide) (by decide)

example := @C130_false_widen (BitVec 8) (BitVec 16) inferInstance inferInstance 4 release64 100
  [1, 2, 3, 4, 5] (Vector.replicate _ 0) (fun _ => 1) (by decide) (by decide) (by decide) rfl
  (by decide) (by decide) (by decide)

example := @C131_popcnt 8 4 release64 1 (fun _ => (ok 1)) (by decide) (by decide)

example := @C131_blind_order 8 4 (fun x => x) (by intros; first | rfl | simp | omega | decide)
  (fun _ => (fun x => ok x)) (fun x => ok x) 1 1 1 1 1 1 1 1 1 1

example := @C131_blind_halves 8 4 1
  (fun _ => (ok ((Vector.replicate _ 1), (Vector.replicate _ 1)))) 1 1 1 1 rfl

example := @C131_blind_lanes 16 16 (fun x => x) (by intros; first | rfl | simp | omega | decide)
  (fun x => ok x)

example := @C131_blind_recip 4 (fun x => x) (by intros; first | rfl | simp | omega | decide)
  (fun x => ok x) 1 100 1 rfl

example := @C131_blind_constant 8 4 (by decide) release64

example := @C132_add 32 (by decide) 1 1

example := @C132_sub 32 (by decide) 1 1

example := @C132_mul 32 (by decide) 1 1

example := @C132_div 32 (by decide) 1 1

example := @C132_unique 32 (by decide) 1 1 1 1

example := @C133_fixed (SIMDIter (Slice (BitVec 8) 4) (BitVec 8) 4) (BitVec 8) 4 inferInstance
  inferInstance inferInstance inferInstance release64 [IterOp.next] (exIter 0) _ _ rfl

example := @C133_zip_fixed (SIMDIter (Slice (BitVec 8) 4) (BitVec 8) 4)
  (SIMDIter (Slice (BitVec 8) 4) (BitVec 8) 4 × Unit) (BitVec 8) (Vector (BitVec 8) 4 × Unit) 4
  inferInstance inferInstance inferInstance inferInstance inferInstance release64 [ZipOp.next]
  ⟨exFirst 0, exRest⟩ _ _ rfl

example := @C133_end (SIMDIter (Slice (BitVec 8) 4) (BitVec 8) 4) (BitVec 8) 4 inferInstance
  inferInstance inferInstance ⟨true, 16⟩ (exIter 4) _ _ _ _ rfl (by decide) rfl

example := @C134_end (List (BitVec 8)) (BitVec 8) 4 inferInstance release64
  (.mk [1, 2, 3, 4, 5] (Vector.replicate _ 1) (Vector.replicate _ 1) 1) 100 (by decide)
  (by decide) (by decide) (by intro _ _ _ h; cases h <;> decide) (by decide)

example := @C134_end_stops (List (BitVec 8)) (BitVec 8) 4 inferInstance release64
  (.mk [1, 2, 3, 4, 5] (Vector.replicate _ 1) (Vector.replicate _ 1) 1) 100 (by decide)
  (by decide) (by decide) (by intro _ _ _ h; cases h <;> decide) (by decide)

example := @C134_model (BitVec 8) 4 release64 (by decide) (by decide) [.next]
  ⟨[1, 2, 3, 4, 5], Vector.replicate _ 0, Vector.replicate _ 0, 0⟩ (by decide) (by decide)

example := @C135_fill_all (SIMDIter (Slice (BitVec 8) 4) (BitVec 8) 4) (BitVec 8) 4 inferInstance
  inferInstance release64 100 (exIter 4) (exIter 4) _ [] _ [1, 2, 3, 4, 5]
  (by constructor <;> decide) rfl (by decide) (by decide) (by decide)

example := @C135_collect_partial (SIMDIter (Slice (BitVec 8) 4) (BitVec 8) 4) (BitVec 8) 4
  inferInstance inferInstance inferInstance release64 100 (exIter 4) (exIter 4) _ [] _ _
  (by constructor <;> decide) rfl rfl (by decide) (by decide) (by decide) (by decide)
  (by simp [Fits, badAccess]) (by decide)

example := @C135_collect_all (SIMDIter (Slice (BitVec 8) 4) (BitVec 8) 4) (BitVec 8) 4
  inferInstance inferInstance release64 100 (exIter 4) (exIter 4) _ [] _ _
  (by constructor <;> decide) rfl rfl (by decide) (by decide) (by decide)

example := @C135_collect_all_ub (SIMDIter (Slice (BitVec 8) 4) (BitVec 8) 4) (BitVec 8) 4
  inferInstance inferInstance release64 100 (exIter 4) (exIter 4) _ [] _ _
  (by constructor <;> decide) rfl rfl (by decide) (by decide) (by decide)

end Faster
