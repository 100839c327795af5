import Verif.Witness.Common

/-!
# Concrete states meeting the hypotheses: C147 to the theorems used by several properties

Every line applies one of the claimed theorems to concrete arguments, with all
its hypotheses proved: none of them is vacuous.
-/

namespace Faster
open Res

set_option maxRecDepth 4000
set_option linter.all false

example := @C147_many_outcome (BitVec 8) (SIMDIter (Slice (BitVec 8) 4) (BitVec 8) 4 × Unit)
  (Vector (BitVec 8) 4 × Unit) 8 inferInstance inferInstance inferInstance inferInstance Unit Nat
  debug64 [1, 2, 3, 4] (Vector.replicate _ 0) exRest (by decide) (by constructor <;> decide) 100 1
  () (fun _ => (fun _ => (fun _ => (ok (4, ()))))) (by decide) (by simp)

example := @C147_aligned_partial (BitVec 8) (BitVec 16) 4 4 inferInstance Unit
  (Slice (BitVec 8) 4) release64 [1, 2, 3, 4] [1, 2, 3, 4, 5] (Vector.replicate _ 1)
  (Vector.replicate _ 1) (by decide) (by constructor <;> decide) 100 ⟨[1, 2, 3, 4, 5]⟩ ()
  (fun _ => (fun _ => (fun _ => (ok (⟨[1, 2, 3, 4, 5]⟩, ()))))) (by decide) rfl rfl
  (by intros; first | rfl | simp | omega | decide) (by decide)

example := @C147_zip (BitVec 8) (SIMDIter (Slice (BitVec 8) 4) (BitVec 8) 4 × Unit)
  (Vector (BitVec 8) 4 × Unit) 4 inferInstance inferInstance release64 [1, 2, 3, 4, 5]
  (Vector.replicate _ 1) exRest (by decide) (by constructor <;> decide)

example := @C147_reduce_exact (BitVec 8) (SIMDIter (Slice (BitVec 8) 4) (BitVec 8) 4 × Unit)
  (Vector (BitVec 8) 4 × Unit) 4 inferInstance inferInstance inferInstance Unit
  (Slice (BitVec 8) 4) release64 [1, 2, 3, 4, 5] (Vector.replicate _ 1) exRest (by decide)
  (by constructor <;> decide) 100 ⟨[1, 2, 3, 4, 5]⟩ ()
  (fun _ => (fun _ => (fun _ => (ok (⟨[1, 2, 3, 4, 5]⟩, ()))))) (by decide)

example := @C147_do_each_exact (BitVec 8) (SIMDIter (Slice (BitVec 8) 4) (BitVec 8) 4 × Unit)
  (Vector (BitVec 8) 4 × Unit) 4 inferInstance inferInstance inferInstance Unit release64
  [1, 2, 3, 4, 5] (Vector.replicate _ 1) exRest (by decide) (by constructor <;> decide) 100 ()
  (fun _ => (fun _ => (ok ((), ())))) (by decide)

example := @C147_outcome (BitVec 8) (BitVec 8) 4 4 inferInstance Unit (Slice (BitVec 8) 4)
  release64 [1, 2, 3, 4, 5] [1, 2, 3, 4, 5] (Vector.replicate _ 1) (Vector.replicate _ 1)
  (by decide) (by constructor <;> decide) 100 ⟨[1, 2, 3, 4, 5]⟩ ()
  (fun _ => (fun _ => (fun _ => (ok (⟨[1, 2, 3, 4, 5]⟩, ()))))) (by decide)
  (by intros; first | rfl | simp | omega | decide)

example := @C147_emits (BitVec 8) (SIMDIter (Slice (BitVec 8) 4) (BitVec 8) 4 × Unit)
  (Vector (BitVec 8) 4 × Unit) 4 inferInstance inferInstance inferInstance release64
  [1, 2, 3, 4, 5] (Vector.replicate _ 1) exRest (by decide) (by constructor <;> decide)

example := @C147_collect_exact (BitVec 8) (SIMDIter (Slice (BitVec 8) 4) (BitVec 8) 4 × Unit)
  (Vector (BitVec 8) 4 × Unit) 4 inferInstance inferInstance inferInstance (BitVec 8) Unit 4
  inferInstance release64 [1, 2, 3, 4, 5] (Vector.replicate _ 1) exRest (by decide)
  (by constructor <;> decide) 100 () (fun _ => (fun _ => (ok ((Vector.replicate _ 1), ()))))
  (by decide) (by decide) (by decide) (by decide)

example := @C147_narrower 4 2 release64 8 1 (by decide) (by decide) (by decide)

example := @C148_slice_partial (BitVec 8) 4 release64 100 [1, 2, 3, 4, 5] (Vector.replicate _ 1)
  (by decide) (by decide) (by decide) 8

example := @C148_map_partial (BitVec 8) (BitVec 8) Unit 4 4 inferInstance inferInstance release64
  100 [1, 2, 3, 4, 5] (Vector.replicate _ 1)
  (fun _ => (fun _ => (ok ((Vector.replicate _ 1), ())))) () _ (by decide) (by decide) (by decide)
  rfl 8

example := @C148_zip_partial (BitVec 8) (SIMDIter (Slice (BitVec 8) 4) (BitVec 8) 4 × Unit)
  (Vector (BitVec 8) 4 × Unit) 4 inferInstance inferInstance inferInstance release64 100
  [1, 2, 3, 4, 5] (Vector.replicate _ 1) exRest (by decide) (by decide) (by decide) (by decide)
  (by decide) 8

example := @C148_count_len_iff (BitVec 8) 4 release64 100 [1, 2, 3, 4, 5] (Vector.replicate _ 1) 0
  (by decide) (by decide) (by decide) (by decide)

example := @C148_stride_count (BitVec 8) 4 inferInstance release64 100 [1, 2, 3, 4, 5] 2 1
  (by decide) (Vector.replicate _ 1) (by decide) (by decide) (by decide)

example := @C148_adapter_count (BitVec 8) 4 release64 100 [1, 2, 3, 4, 5] (Vector.replicate _ 1)
  (by decide) (by decide) (by decide)

example := @C149_slice_reduce (BitVec 8) (BitVec 8) 4 release64 Unit Unit Nat 4 inferInstance
  inferInstance (by decide) (by decide) 100 (exIter 0) 1 () ()
  (fun _ => (fun _ => (ok ((Vector.replicate _ 1), ()))))
  (fun _ => (fun _ => (fun _ => (ok (1, ())))))

example := @C150_check (BitVec 8) (BitVec 8) 4 4 release64 [1, 2, 3, 4, 5] [1, 2, 3, 4, 5]
  (Vector.replicate _ 1) (Vector.replicate _ 1) (by decide) (by decide) (by decide) (by decide)

example := @stride_end_exact (Slice (BitVec 8) 4) (BitVec 8) 4 inferInstance inferInstance
  inferInstance release64 ⟨[1, 2, 3, 4, 5]⟩ [1, 2, 3, 4, 5] (represents_slice _ _) 2 1 (by decide)
  (Vector.replicate _ 0) (by decide) (by decide) 0

example := @destrideTwo_polyfill (BitVec 8) 4 _ (by decide) rfl (Vector.replicate _ 0)
  (Vector.replicate _ 0)

example := @upCorrect upcastRows[6] (by simp) (by decide) (by decide) (by decide) (fun _ => 1)

example := @softOps_rows softOps[0] (by simp)

example := @rsqrt_fallback_lanewise rsqrtRows[0] (by simp) (Vector.replicate _ 1)

example := @transmuteOn_little _ _ 4 4 2 1 rfl (by decide) rfl (Vector.replicate _ 1)

example := @transmuteOn_big _ _ 4 4 2 1 rfl (by decide) rfl (Vector.replicate _ 0)

example := @adapter_end_exact (BitVec 8) 4 release64 (Vector.replicate _ 1) (Vector.replicate _ 1)
  0 [1, 2, 3, 4, 5] (by decide) (by decide) (by decide)

end Faster
