import Verif.Witness.Common

/-!
# Concrete states meeting the hypotheses: C95 to C114

Every line applies one of the claimed theorems to concrete arguments, with all
its hypotheses proved: none of them is vacuous.
-/

namespace Faster
open Res

set_option maxRecDepth 4000
set_option linter.all false

example := @C95_splat (BitVec 8) 4 1 1 (by decide)

example := @C95_store_load (BitVec 8) 4 (Vector.replicate _ 0) [1, 2, 3, 4, 5] _ rfl

example := @C96_exact release64 (SIMDIter (Slice (BitVec 8) 4) (BitVec 8) 4) (BitVec 8) 4
  inferInstance inferInstance inferInstance _ _
  (.source (.slice [1, 2, 3, 4, 5] (Vector.replicate 4 0) (by decide) (by decide)) (by decide) (by decide))
  100 (by decide) [1, 2, 3, 4] (by decide)

example := @C96_short_debug_partial debug64 (SIMDIter (Slice (BitVec 8) 4) (BitVec 8) 4)
  (BitVec 8) 4 inferInstance inferInstance inferInstance (exIter 0) [1, 2, 3, 4, 5]
  (.source (.slice [1, 2, 3, 4, 5] (Vector.replicate 4 0) (by decide) (by decide)) (by decide) (by decide))
  (by decide) 100 (by decide) [1, 2, 3, 4] (by decide)

example := @C96_short_release release64 (SIMDIter (Slice (BitVec 8) 4) (BitVec 8) 4) (BitVec 8) 4
  inferInstance inferInstance inferInstance (exIter 0) [1, 2, 3, 4, 5]
  (.source (.slice [1, 2, 3, 4, 5] (Vector.replicate 4 0) (by decide) (by decide)) (by decide) (by decide))
  (by decide) (by decide) 100 (by decide) [1, 2, 3, 4] (by decide)

example := @C96_fill_iff release64 (SIMDIter (Slice (BitVec 8) 4) (BitVec 8) 4) (BitVec 8) 4
  inferInstance inferInstance inferInstance (exIter 0) [1, 2, 3, 4, 5]
  (.source (.slice [1, 2, 3, 4, 5] (Vector.replicate 4 0) (by decide) (by decide)) (by decide) (by decide))
  100 (by decide) [1, 2, 3, 4, 5]

example := @C97_exact (BitVec 8) inferInstance 16 debug64 [1, 2, 3, 4] (Vector.replicate _ 0)
  (2 ^ 64 - 4) (by decide) [] none 0 (by decide)

example := @C97_safe_partial (BitVec 8) inferInstance 4 release64 [1, 2, 3, 4, 5]
  (Vector.replicate _ 0) 100 (some (Vector.replicate _ 0)) 0 [ZipOp.next] (by decide) (by decide)
  (by decide)

example := @C98_pairs_partial (BitVec 8) inferInstance 2 release64 [1, 2, 3, 4, 5]
  (Vector.replicate _ 1) (Vector.replicate _ (1, 1)) (some (Vector.replicate _ 1)) (by decide)
  (by decide) [ZipOp.next] 0 _ _ (by decide) (by decide) rfl (by decide)

example := @C98_exact (BitVec 8) inferInstance 4 release64 [1, 2, 3, 4, 5] (Vector.replicate _ 0)
  0 (by decide) (by decide) [ZipOp.next] ((some (Vector.replicate _ 1)), 1) (by decide)
  (by decide)

example := @C98_order (BitVec 8) inferInstance 4 release64 [1, 2, 3, 4, 5] (Vector.replicate _ 0)
  0 (by decide) (by decide) [ZipOp.next] (some (Vector.replicate _ 1)) 0 (by decide) (by decide)
  (by decide) _ _ rfl

example := @C98_none_moves (BitVec 8) inferInstance 4 release64 [1, 2, 3, 4, 5]
  (Vector.replicate _ 1) (some (Vector.replicate _ 1)) 0 (by decide) (by decide) (by decide)
  (by decide)

example := @C98_exhausted (BitVec 8) inferInstance 4 release64 [1, 2, 3, 4, 5]
  (Vector.replicate _ 1) 100 (some (Vector.replicate _ 1)) 0 (by decide) (by decide) _ rfl

example := @C98_end_once (BitVec 8) inferInstance 4 release64 [1, 2, 3, 4, 5]
  (Vector.replicate _ 0) 100 none 0 (by decide) (by decide) (by decide) (by decide) _ _ rfl

example := @C99_scalar release64 [1, 2, 3, 4, 5] [1, 2, 3, 4, 5] (by decide)

example := @C100_map (BitVec 8) (BitVec 8) inferInstance inferInstance 4
  (fun _ => (fun x y => x = y)) (fun x => ok x) (by intros; first | rfl | simp | omega | decide)
  release64 100 [1, 2, 3, 4, 5] (Vector.replicate _ 1) (by decide) (by decide) rfl (by decide)
  (by decide) (by decide)

example := @C100_zip (SIMDIter (Slice (BitVec 8) 4) (BitVec 8) 4)
  (SIMDIter (Slice (BitVec 8) 4) (BitVec 8) 4 × Unit) (BitVec 8) (Vector (BitVec 8) 4 × Unit)
  (BitVec 8 × Unit) 4 inferInstance inferInstance inferInstance inferInstance inferInstance
  release64 exFirst exRest exRows exDv (fun p => p + 4 ≤ 5) (BitVec 8) inferInstance
  (fun _ => (fun _ => (fun _ => True)))
  (simdIter_driver (represents_slice _ _) _ (by decide) (by decide)) (by decide)
  ⟨repIter_simdIter _ _ _ _ (by decide) (by decide), trivial⟩ (by decide) 100
  (fun _ => (fun _ => (ok ((Vector.replicate _ 0), ())))) (by simp) (by decide) (by decide)
  (by decide) (by decide)

example := @C100_stride_two (BitVec 8) (BitVec 8) inferInstance inferInstance 4
  (fun _ => (fun _ => (fun _ _ => True))) (fun _ => (fun _ => (ok ((Vector.replicate _ 1), ()))))
  (by intros; first | rfl | simp | omega | decide) release64 100 [1, 2, 3, 4, 5]
  (Vector.replicate _ 1) (Vector.replicate _ 1) (by decide) (by decide) (by decide) rfl
  (by decide) (by decide)

example := @C101_abs absRows[4] (by simp) (by decide) (by decide) true release64 100
  [1, 2, 3, 4, 5] (by decide) (by decide)

example := @C101_lots_of_84s absRows[4] (by simp) (by decide) (by decide) true release64 100 1
  (by decide) (by decide)

example := @C101_fill 4 release64 100 [1, 2, 3, 4, 5] [1, 2, 3, 4, 5] (by decide) (by decide)
  (by decide) (by decide)

example := @C101_strided 4 release64 100 [1, 2, 3, 4, 5] (by decide) (by decide) (by decide)
  (by decide)

example := @C102_last_lane (BitVec 8) 4 (by decide) (Vector.replicate _ 1) [1, 2, 3, 4, 5] 1 _ rfl

example := @C102_checked (BitVec 8) (BitVec 8) inferInstance inferInstance 4 release64 8
  [1, 2, 3, 4, 5] (fun _ => (Vector.replicate _ 1)) (by decide) (by decide) 100 (fun _ => true)
  (fun _ => 1) (by decide) rfl (by decide) (by decide)

example := @C102_program (BitVec 8) inferInstance inferInstance 4 (fun _ => 1)
  (fun _ => (fun _ => 1)) (fun _ => (fun _ => 1)) (fun _ => (fun _ => 1)) 1 release64 100
  [1, 2, 3, 4, 5] (by decide) (by decide) (by decide) (by decide) (by decide)

example := @C102_cycled (BitVec 8) inferInstance inferInstance inferInstance 4 (fun _ => 1)
  (fun _ => (fun _ => 1)) (fun _ => (fun _ => 1)) (fun _ => (fun _ => 1)) 1 release64 100 1
  (by decide) (by decide) (by decide) (by decide) (by decide)

example := @C102_test release64 100 1 4 (by decide) (by decide) (by decide)

example := @C103_fallback upcastRows[8] (by simp) (by decide) (Vector.replicate _ 1)

example := @C103_optimized upcastRows[8] (by simp) (by decide) _ rfl (Vector.replicate _ 0)

example := @C104_downcast_partial downcastRows[3] (by simp) (by decide) (Vector.replicate _ 1)
  (Vector.replicate _ 1)

example := @C104_false downcastRows[3] (by simp) (by decide)

example := @C105_round false roundRows[0] (by simp) (by decide) _ rfl (by decide) release64 100
  [1, 2, 3, 4, 5] (by decide) (by decide) (by decide) (by decide)

example := @C105_abs true absRows[0] (by simp) (by decide) (by decide) release64 100
  [1, 2, 3, 4, 5] (by decide) (by decide) (by decide) (by decide)

example := @C105_sqrt true sqrtRows[0] (by simp) release64 100 [1, 2, 3, 4, 5] (by decide)
  (by decide) (by decide) (by decide)

example := @C105_recip recipRows[0] (by simp) release64 100 [1, 2, 3, 4, 5] (by decide)
  (by decide) (by decide) (by decide)

example := @C105_min_max true cmpRows[13] (by simp) (by decide) (by decide) release64 100
  [1, 2, 3, 4, 5] (by decide) (by decide) (by decide) (by decide)

example := @C105_round_partial roundRows[0] (by simp) (by decide) (by decide) release64 100
  [1, 2, 3, 4, 5] (by decide) (by decide) (by decide) (by decide)

example := @C105_false roundRows[0] (by simp) (by decide) (by decide)

example := @C106_reduce_scalar [] (by simp) (by decide)

example := @C109_sum 32 4 (by decide) _ _ (C63_fallback _).1 rfl

example := @C109_vectors 64 2 (by decide) _ _ (C63_fallback _).1 rfl [] (by intros; simp_all)

example := @C109_factor 16 0 (by simp)

example := @C110_determinant3 4 release64 100 [1, 2, 3, 4, 5] (by decide) (by decide) (by decide)
  (by decide)

example := @C110_determinant2 4 release64 100 [1, 2, 3, 4, 5] (by decide) (by decide) (by decide)
  (by decide)

example := @C110_zip_nop (BitVec 8) inferInstance inferInstance (fun _ => (fun _ => 1)) 1 4
  release64 100 [1, 2, 3, 4, 5] (by decide) (by decide) (by decide) (by decide) (by decide)

example := @C110_nop (BitVec 8) inferInstance 1 4 release64 100 [1, 2, 3, 4, 5] (by decide)
  (by decide) (by decide) (by decide) (by decide)

example := @C110_stride_zip_partial (BitVec 8) inferInstance inferInstance (fun _ => (fun _ => 1))
  5 2 release64 100 [1, 2, 3, 4] (by decide) (by decide) (by decide) (by decide) (by decide)
  (by decide)

example := @C110_stride_zip_length (BitVec 8) inferInstance inferInstance (fun _ => (fun _ => 1))
  1 4 release64 100 [1, 2, 3, 4, 5] (by decide) (by decide) (by decide) (by decide) (by decide)
  (by decide) (by decide)

example := @C112_in_place 4 release64 100 1 [1, 2, 3, 4, 5] (by decide) (by decide) (by decide)

example := @C112_reduce 8 4 .i _ (fun _ _ _ => rfl) release64 100 [1, 2, 3, 4, 5] (by decide)
  (by decide) rfl (by decide) (by decide) (by decide)

example := @C112_reduce_release 8 4 true _ (fun _ => rfl) release64 100 [1, 2, 3, 4, 5]
  (by decide) (by decide) (by decide)

example := @C112_reduce_copies 8 4 _ (fun _ _ _ => rfl) release64 100 1 1 (by decide) (by decide)
  (by decide) (by decide) (by decide)

example := @C112_kernel_reduce 8 4 .i _ (fun _ _ _ => rfl) release64 100 [1, 2, 3, 4, 5]
  [1, 2, 3, 4, 5] rfl (by decide) (by decide) (by decide) (by decide) (by decide) rfl

example := @C112_kernel_fill 8 4 .i release64 100 [1, 2, 3, 4, 5] [1, 2, 3, 4, 5] [1, 2, 3, 4, 5]
  (by decide) (by decide) (by decide) (by decide) (by decide) (by decide) (by decide) (by decide)

example := @C113_roundtrip _ _ 4 4 2 2 true rfl (by decide) rfl (by decide) (by decide)
  (Vector.replicate _ 0)

example := @C113_memory _ 4 2 true rfl (Vector.replicate _ 1)

example := @C113_collect _ _ 4 2 1 true (by decide) rfl (by decide) rfl release64 100
  [1, 2, 3, 4, 5] (by decide) (by decide) (by decide) (by decide) (by decide)

example := @C113_bitcast_partial _ _ 4 2 1 (by decide) rfl (by decide) rfl release64 100
  [1, 2, 3, 4, 5] (by decide) (by decide) (by decide) (by decide) (by decide)

example := @C113_octuples _ 4 2 true (by decide) rfl release64 100 [1, 2, 3, 4, 5] (by decide)
  (by decide) (by decide) (by decide) (by decide)

example := @C114_sources patternRows[0] (by decide)

end Faster
