import Verif.Witness.Common

/-!
# Concrete states meeting the hypotheses: C79 to C95

Every line applies one of the claimed theorems to concrete arguments, with all
its hypotheses proved: none of them is vacuous.
-/

namespace Faster
open Res

set_option maxRecDepth 4000
set_option linter.all false

example := @C79_unroll (SIMDIter (Slice (BitVec 8) 4) (BitVec 8) 4) (BitVec 8) 4 inferInstance
  inferInstance debug64 (fun _ => True) inferInstance (C79_iter rfl (C79_slice rfl)) (exIter 0) 1
  trivial

example := @C79_calls (SIMDIter (Slice (BitVec 8) 4) (BitVec 8) 4) (BitVec 8) 4 inferInstance
  inferInstance debug64 (fun _ => True) inferInstance rfl (C79_iter rfl (C79_slice rfl))
  (simdIter_safeArray (C79_slice rfl)) [IterOp.next] (exIter 0) trivial

example := @C79_zip_do_each
  (Zip (SIMDIter (Slice (BitVec 8) 4) (BitVec 8) 4) (SIMDIter (Slice (BitVec 8) 4) (BitVec 8) 4 × Unit))
  (Vector (BitVec 8) 4 × Vector (BitVec 8) 4 × Unit) inferInstance debug64 _ Unit
  (C79_zip (C79_iter rfl (C79_slice rfl)) (C79_rest_cons rfl (C79_iter rfl (C79_slice rfl)).toSafeIterable (simdIter_safeArray (C79_slice rfl)) C79_rest_nil))
  (fun _ => (fun _ => (ok ((), ())))) (fun _ _ => trivial) 100 ⟨exFirst 0, exRest⟩ () (by decide)

example := @C79_slice_mut (BitVec 8) 4 debug64 (by decide) 8

example := @C80_end_debug (SIMDIter (Slice (BitVec 8) 4) (BitVec 8) 4) _ 4 1 inferInstance
  inferInstance inferInstance debug64 (by decide) (by decide) (by decide) (by decide) (by decide)
  (by decide) (exIter 0)

example := @C80_end_unchecked_partial (SIMDIter (Slice (BitVec 8) 4) (BitVec 8) 4) _ 4 1
  inferInstance inferInstance inferInstance release64 (by decide) (by decide) (by decide)
  (by decide) (by decide) (exIter 0) 1 1 (by decide)

example := @C80_end_unchecked_debug (SIMDIter (Slice (BitVec 8) 4) (BitVec 8) 4) _ 4 1
  inferInstance inferInstance inferInstance debug64 (by decide) (by decide) (by decide)
  (by decide) (by decide) (by decide) (exIter 0) 1 1

example := @C80_end_exact _ 4 1 (Slice (BitVec 8) 4) inferInstance inferInstance release64
  (by decide) (by decide) (by decide) (by decide) (by decide) (by decide) ⟨[1, 2, 3, 4, 5]⟩
  [1, 2, 3, 4, 5] (represents_slice _ _) 0 (Vector.replicate _ 0) (by decide)

example := @C80_pass (Slice (BitVec 8) 4) _ 4 1 inferInstance inferInstance release64 (by decide)
  (by decide) (by decide) (by decide) (by decide) ⟨[1, 2, 3, 4, 5]⟩ [1, 2, 3, 4, 5]
  (represents_slice _ _) (Vector.replicate _ 0) (by decide) (by decide)

example := @C80_reduce _ 4 2 (BitVec 8) Unit release64 rfl (by decide) (by decide) (by decide)
  (by decide) 100 [1, 2, 3, 4, 5] (Vector.replicate _ 0) 1 ()
  (fun _ => (fun _ => (fun _ => (ok (1, ()))))) (by decide) (by decide) (by decide)

example := @C80_collect _ 2 2 (BitVec 8) Unit inferInstance inferInstance 4 release64 rfl
  (by decide) (by decide) (by decide) (by decide) 100 [1, 2, 3, 4, 5] (Vector.replicate _ 0) ()
  (fun _ => (fun _ => (ok ((Vector.replicate _ 0), ())))) (by decide) (by decide) (by decide)
  (by decide) (by decide) (by decide) (by decide) (by decide)

example := @C81_exact _ 8 4 release64 rfl (by decide) (by decide) (by decide) (by decide)
  [1, 2, 3, 4] (Vector.replicate _ 0) (by decide) [] 7 (by decide)

example := @C81_false (List.replicate 64 1) (Vector.replicate _ 0) (by decide) (by decide)

example := @C81_fresh_end _ 4 4 release64 rfl rfl (by decide) rfl (by decide) (by decide)
  (List.replicate 64 1) (Vector.replicate _ 0) (by decide) (by decide) (by decide)

example := @C81_safe_partial _ 8 4 release64 rfl (by decide) (by decide) (by decide) (by decide)
  [1, 2, 3, 4] (Vector.replicate _ 0) 1 [] (by decide) (by decide) (by simp)

example := @C81_elements_lost _ 4 2 release64 (by decide) rfl (by decide) (by decide) (by decide)
  (by decide) [1, 2, 3, 4, 5] (Vector.replicate _ 0) 0 (by decide) (by decide) (by decide)

example := @C82_dot_product 8 4 true _ (fun _ => rfl) release64 100 [1, 2, 3, 4, 5]
  [1, 2, 3, 4, 5] rfl (by decide) (by decide) (by decide)

example := @C82_squared_distance 8 4 true _ (fun _ => rfl) release64 100 [1, 2, 3, 4, 5]
  [1, 2, 3, 4, 5] rfl (by decide) (by decide) (by decide) (by decide) (by decide)

example := @C82_padding_counts 8 4 true _ (fun _ => rfl) release64 100 [1, 2, 3, 4, 5]
  [1, 2, 3, 4, 5] rfl (by decide) (by decide) (by decide)

example := @C83_squared_differences 8 4 release64 100 [1, 2, 3, 4, 5] [1, 2, 3, 4, 5]
  [1, 2, 3, 4, 5] (Vector.replicate _ 0) (Vector.replicate _ 0) (by decide) (by decide)
  (by decide) (by decide) (by decide) (by decide) (by decide)

example := @C84_stride_with_slice (BitVec 8) (BitVec 8) (BitVec 8) inferInstance inferInstance 16
  release64 100 [1, 2, 3, 4, 5] [1, 2, 3, 4, 5] 1 0 (by decide) (Vector.replicate _ 0)
  (Vector.replicate _ 0) (fun _ => (fun _ => 0)) (by decide) (by decide) (by decide) (by decide)
  (by decide) (by decide) (by decide)

example := @C84_slice_with_stride (BitVec 8) (BitVec 8) (BitVec 8) inferInstance inferInstance
  inferInstance 4 release64 100 [1, 2, 3, 4, 5] [1, 2, 3, 4, 5] 1 0 (by decide)
  (Vector.replicate _ 0) (Vector.replicate _ 0) (fun _ => (fun _ => 1)) (by decide) (by decide)
  (by decide) (by decide) (by decide) (by decide) (by decide)

example := @C84_determinant3 (BitVec 8) inferInstance 4 (fun _ => (fun _ => 1))
  (fun _ => (fun _ => 1)) (fun _ => (fun _ => 1)) release64 100 [1, 2, 3, 4, 5]
  (fun _ => (Vector.replicate _ 0)) (by decide) (by decide) (by decide) (by decide) (by decide)

example := @C85_for_store (BitVec 8) (BitVec 8) 4 4 release64 100 [1, 2, 3, 4, 5]
  (Vector.replicate _ 0) (fun _ => (Vector.replicate _ 0)) [1, 2, 3, 4, 5] (by decide) (by decide)
  (by decide) (by decide) (by decide)

example := @C85_for_store_lanewise (BitVec 8) (BitVec 8) 4 release64 100 [1, 2, 3, 4, 5]
  (Vector.replicate _ 0) (fun _ => 1) [1, 2, 3, 4, 5] (by decide) (by decide) (by decide)
  (by decide) (by decide)

example := @C85_unrolled_repaired (BitVec 8) (BitVec 8) 4 4 inferInstance release64 100 1
  [1, 2, 3, 4, 5] (Vector.replicate _ 0) (fun _ => (Vector.replicate _ 0)) [1, 2, 3, 4, 5]
  (by decide) (by decide) (by decide) (by decide) (by decide) (by decide) (by decide) (by decide)
  (by decide)

example := @C85_unrolled_partial (BitVec 8) (BitVec 8) 4 4 inferInstance release64 100 _
  [1, 2, 3, 4, 5] (Vector.replicate _ 0) (fun _ => (Vector.replicate _ 0)) [1, 2, 3, 4, 5]
  (by decide) (by decide) (by constructor <;> decide) (by decide) (by decide) (by decide)
  (by decide) (by decide) (by decide)

example := @C85_unrolled_incomplete (BitVec 8) (BitVec 8) 4 4 inferInstance release64 100 2
  [1, 2, 3, 4, 5] (Vector.replicate _ 0) (fun _ => (Vector.replicate _ 0)) [1, 2, 3, 4, 5]
  (by decide) (by decide) (by decide) (by decide) (by decide) (by decide) (by decide) (by decide)

example := @C85_unrolled_exact (BitVec 8) (BitVec 8) 4 4 inferInstance release64 100 1 1
  [1, 2, 3, 4, 5] (Vector.replicate _ 0) (fun _ => (Vector.replicate _ 0)) [1, 2, 3, 4, 5]
  (by decide) (by decide) (by decide) (by decide) (by decide) (by decide) (by decide) (by decide)
  (by decide) (by decide)

example := @C85_unrolled_short (BitVec 8) (BitVec 8) 4 4 inferInstance release64 100 1 1
  [1, 2, 3, 4, 5] (Vector.replicate _ 0) (fun _ => (Vector.replicate _ 0)) [1, 2, 3, 4, 5]
  (by decide) (by decide) (by decide) (by decide) (by decide) (by decide) (by decide) (by decide)
  (by decide)

example := @C85_unrolled_none (BitVec 8) (BitVec 8) 8 4 inferInstance release64 100 1
  [1, 2, 3, 4, 5] (Vector.replicate _ 0) (fun _ => (Vector.replicate _ 0))
  (fun _ => (fun _ => (ok 1))) [1, 2, 3, 4, 5] (by decide) (by decide) (by decide) (by decide)
  (by decide) (by decide)

example := @C86_two (BitVec 8) inferInstance destrideRows[0] (by simp) release64 100
  [1, 2, 3, 4, 5] (Vector.replicate _ 0) (by decide) (by decide)

example := @C86_two_ssse3 true release64 100 [1, 2, 3, 4, 5] (Vector.replicate _ 0) (by decide)
  (by decide)

example := @C86_two_avx2 release64 100 [1, 2, 3, 4, 5] (Vector.replicate _ 0) (by decide)
  (by decide)

example := @C86_two_avx2_iff release64 100 [1, 2, 3, 4, 5] (Vector.replicate _ 0) (by decide)
  (by decide) (by decide)

example := @C86_four (BitVec 8) inferInstance destrideRows[0] (by simp) release64 100
  [1, 2, 3, 4, 5] (Vector.replicate _ 0) (by decide) (by decide)

example := @C86_strides (BitVec 8) inferInstance 4 release64 8 100 [1, 2, 3, 4, 5]
  (fun _ => (Vector.replicate _ 0)) (by decide) (by decide) (by decide) (by decide)

example := @C86_two_same_partial (BitVec 8) inferInstance _ (.head _) release64 100
  (List.replicate 64 1) (Vector.replicate _ 0) (Vector.replicate _ 1) (Vector.replicate _ 1)
  (by decide) rfl (by decide)

example := @C86_two_same_ssse3 true release64 100 (List.replicate 64 1) (Vector.replicate _ 0)
  (Vector.replicate _ 1) (Vector.replicate _ 1) (by decide) rfl (by decide)

example := @C86_four_same (BitVec 8) inferInstance _ (.head _) release64 100 (List.replicate 64 1)
  (Vector.replicate _ 0) (fun _ => (Vector.replicate _ 1)) (by decide) rfl (by decide)

example := @C87_rows_partial (SIMDIter (Slice (BitVec 8) 4) (BitVec 8) 4 × Unit) (BitVec 8)
  (Vector (BitVec 8) 4 × Unit) (BitVec 8 × Unit) 4 inferInstance inferInstance inferInstance
  release64 exRows exDv exRest ⟨repIter_simdIter _ _ _ _ (by decide) (by decide), trivial⟩
  (by decide) [ZipOp.next] 0 (by decide) (by decide)

example := @C87_two_partial (BitVec 8) (BitVec 8) inferInstance 8 debug64 [1, 2, 3, 4, 5, 6, 7, 8]
  [1, 2, 3, 4, 5, 6, 7, 8] (Vector.replicate _ 0) (Vector.replicate _ 0) 7 8 (by decide)
  (by decide) (by decide) (by decide) [] (by decide)

example := @C87_finalize_exact (SIMDIter (Slice (BitVec 8) 4) (BitVec 8) 4 × Unit) (BitVec 8)
  (Vector (BitVec 8) 4 × Unit) (BitVec 8 × Unit) 4 inferInstance inferInstance release64 exRows
  exDv exRest (by decide) (by decide) 0 (by decide)

example := @C88_exact (SIMDIter (Slice (BitVec 8) 4) (BitVec 8) 4 × Unit) (BitVec 8)
  (Vector (BitVec 8) 4 × Unit) (BitVec 8 × Unit) 4 inferInstance inferInstance inferInstance
  release64 exRows exDv exRest ⟨repIter_simdIter _ _ _ _ (by decide) (by decide), trivial⟩
  (by decide) (by decide) [ZipOp.next] 0 (by decide)

example := @C88_safe_partial (SIMDIter (Slice (BitVec 8) 4) (BitVec 8) 4 × Unit) (BitVec 8)
  (Vector (BitVec 8) 4 × Unit) (BitVec 8 × Unit) 4 inferInstance inferInstance inferInstance
  release64 exRows exDv exRest ⟨repIter_simdIter _ _ _ _ (by decide) (by decide), trivial⟩
  (by decide) (by decide) [] 0 (by decide) (by decide)

example := @C88_two_partial (BitVec 8) (BitVec 8) inferInstance 4 release64 [1, 2, 3, 4, 5]
  [1, 2, 3, 4, 5] (Vector.replicate _ 0) (Vector.replicate _ 0) 0 1 (by decide) (by decide)
  (by decide) (by decide) [ZipOp.next] (by decide)

example := @C89_in_order_partial (SIMDIter (Slice (BitVec 8) 4) (BitVec 8) 4 × Unit) (BitVec 8)
  (Vector (BitVec 8) 4 × Unit) (BitVec 8 × Unit) 4 inferInstance inferInstance inferInstance
  release64 exRows exDv exRest ⟨repIter_simdIter _ _ _ _ (by decide) (by decide), trivial⟩
  (by decide) (by decide) [ZipOp.next] 0 _ _ (by decide) (by decide) (by decide) rfl

example := @C89_complete_from (SIMDIter (Slice (BitVec 8) 4) (BitVec 8) 4 × Unit) (BitVec 8)
  (Vector (BitVec 8) 4 × Unit) (BitVec 8 × Unit) 4 inferInstance inferInstance inferInstance
  release64 exRows exDv exRest ⟨repIter_simdIter _ _ _ _ (by decide) (by decide), trivial⟩
  (by decide) (by decide) [ZipOp.next] 0 _ _ (by decide) (by decide) rfl

example := @C89_two_in_order_partial (BitVec 8) (BitVec 8) inferInstance 4 release64
  [1, 2, 3, 4, 5] [1, 2, 3, 4, 5] (Vector.replicate _ 0) (Vector.replicate _ 0) 1 (by decide)
  (by decide) (by decide) [ZipOp.next] _ _ (by decide) (by decide) rfl

example := @C92_collect release64 (SIMDIter (Slice (BitVec 8) 4) (BitVec 8) 4) (BitVec 8) 4
  inferInstance inferInstance inferInstance (exIter 0) [1, 2, 3, 4, 5]
  (.source (.slice [1, 2, 3, 4, 5] (Vector.replicate 4 0) (by decide) (by decide)) (by decide) (by decide))
  100 (by decide)

example := @C92_fill release64 (SIMDIter (Slice (BitVec 8) 4) (BitVec 8) 4) (BitVec 8) 4
  inferInstance inferInstance inferInstance (exIter 0) [1, 2, 3, 4, 5]
  (.source (.slice [1, 2, 3, 4, 5] (Vector.replicate 4 0) (by decide) (by decide)) (by decide) (by decide))
  100 (by decide) [1, 2, 3, 4, 5] (by decide)

example := @C92_calls release64 (SIMDIter (Slice (BitVec 8) 4) (BitVec 8) 4) (BitVec 8) 4
  inferInstance inferInstance inferInstance (exIter 0) [1, 2, 3, 4, 5]
  (.source (.slice [1, 2, 3, 4, 5] (Vector.replicate 4 0) (by decide) (by decide)) (by decide) (by decide))

example := @C92_same release64 release64 (SIMDIter (Slice (BitVec 8) 4) (BitVec 8) 4)
  (SIMDIter (Slice (BitVec 8) 4) (BitVec 8) 4) (BitVec 8) 4 4 inferInstance inferInstance
  inferInstance inferInstance inferInstance (exIter 0) (exIter 0) [1, 2, 3, 4, 5]
  (.source (.slice [1, 2, 3, 4, 5] (Vector.replicate 4 0) (by decide) (by decide)) (by decide) (by decide))
  (.source (.slice [1, 2, 3, 4, 5] (Vector.replicate 4 0) (by decide) (by decide)) (by decide) (by decide))
  100 100 (by decide) (by decide)

example := @C93_impure_map (BitVec 8) (BitVec 8) Unit inferInstance inferInstance 4 release64 100
  [1, 2, 3, 4, 5] (Vector.replicate _ 0) () _ (fun _ => ()) (fun _ => (fun _ => 1))
  (by intros; first | rfl | simp | omega | decide) (by decide) (by decide) rfl (by decide)
  (by decide) (by decide)

example := @C93_flip 8 4 release64 100 [1, 2, 3, 4, 5] (by decide) (by decide) (by decide)
  (by decide) (by decide)

example := @C93_length_dependent 8 4 true _ (fun _ => rfl) release64 100 [1, 2, 3, 4, 5]
  (by decide) (by decide) (by decide)

example := @C94_file [] (by decide)

example := @C95_sizes _ (.head _) _ (.head _)

example := @C95_back 1 4 (Vector.replicate _ 0) (Vector.replicate _ 0) (by constructor <;> decide)

example := @C95_new (BitVec 8) softRows[0] (by simp) (fun _ => 1)

end Faster
