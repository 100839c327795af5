import Verif.Witness.Common

/-!
# Concrete states meeting the hypotheses: C68 to C79

Every line applies one of the claimed theorems to concrete arguments, with all
its hypotheses proved: none of them is vacuous.
-/

namespace Faster
open Res

set_option maxRecDepth 4000
set_option linter.all false

example := @C68_optimized roundRows[0] (by simp) (by decide) (Vector.replicate _ 0)

example := @C68_fallback roundRows[0] (by simp) (by decide) (Vector.replicate _ 0)

example := @C69_sqrt true sqrtRows[0] (by simp) (Vector.replicate _ 1)

example := @C70_collect (BitVec 8) (BitVec 8) inferInstance inferInstance 4 (fun x y => x = y)
  (fun x => ok x) (fun v => ⟨v, rfl, fun _ _ => rfl⟩) release64 100 [1, 2, 3, 4, 5]
  (Vector.replicate _ 1) (by decide) (by decide) rfl (by decide) (by decide) (by decide)

example := @C70_for_each (BitVec 8) inferInstance 4 (fun x y => x = y) (fun x => ok x)
  (fun v => ⟨v, rfl, fun _ _ => rfl⟩) release64 100 [1, 2, 3, 4, 5] (Vector.replicate _ 1)
  (by decide) (by decide) (by decide)

example := @C70_compose (BitVec 8) (BitVec 8) (BitVec 8) 4 _ _ _ _
  (fun v => ⟨v, rfl, fun _ _ => rfl⟩) (fun v => ⟨v, rfl, fun _ _ => rfl⟩)

example := @C70_abs absRows[4] (by simp) (by decide) true release64 100 [1, 2, 3, 4, 5]
  (Vector.replicate _ 0) (by decide) (by decide) (by decide)

example := @C70_documentation absRows[4] (by simp) (by decide) (by decide) true release64 1
  (by decide) (by decide)

example := @C70_round roundRows[1] (by simp) (by decide) true release64 100 [1, 2, 3, 4, 5]
  (Vector.replicate _ 0) (by decide) (by decide) (by decide)

example := @C70_swap_bytes swapRows[0] (by simp) true release64 100 [1, 2, 3, 4, 5]
  (Vector.replicate _ 0) (by decide) (by decide)

example := @C70_abs_all absRows[0] true (by simp)

example := @C70_sqrt true sqrtRows[0] (by simp)

example := @C71_sum 8 4 true _ (fun _ => rfl) release64 100 [1, 2, 3, 4, 5] (by decide)
  (by decide) (by decide)

example := @C72_map (BitVec 8) (BitVec 8) inferInstance inferInstance 4 4 (fun x => x)
  (fun x => ok x) (fun x => ok x) (fun v => ⟨v, rfl, fun _ _ => rfl⟩)
  (fun v => ⟨v, rfl, fun _ _ => rfl⟩) release64 100 [1, 2, 3, 4, 5] (Vector.replicate _ 0)
  (Vector.replicate _ 1) (by decide) (by decide) (by decide) rfl (by decide) (by decide)
  (by decide) (by decide) (by decide)

example := @C72_sum 8 4 4 true _ _ (fun _ => rfl) (fun _ => rfl) release64 100 [1, 2, 3, 4, 5]
  (by decide) (by decide) (by decide) (by decide) (by decide)

example := @C72_monoid Unit 4 4 release64 100 [1, 2, 3, 4, 5] (fun _ => (fun _ => ())) ()
  (by decide) (by decide) (by decide) (by decide) (by decide) (by decide) (by decide) (by decide)

example := @C72_length_dependent 8 4 true _ (fun _ => rfl) release64 100 1 (by decide) (by decide)
  (by decide)

example := @C73_saturating_add satAddRows[0] (by simp) true release64 100 [1, 2, 3, 4, 5]
  [1, 2, 3, 4, 5] (Vector.replicate _ 0) (Vector.replicate _ 0) (by decide) (by decide)
  (by decide) (by decide)

example := @C73_min_max cmpRows[0] (by simp) (by decide) true release64 100 [1, 2, 3, 4, 5]
  [1, 2, 3, 4, 5] (Vector.replicate _ 1) (Vector.replicate _ 1) rfl (by decide) (by decide)
  (by decide)

example := @C73_add 8 4 release64 100 [1, 2, 3, 4, 5] [1, 2, 3, 4, 5] (Vector.replicate _ 0)
  (Vector.replicate _ 0) (by decide) (by decide) (by decide) (by decide) (by decide) (by decide)

example := @C73_min_max_all release64 cmpRows[0] true (by simp)

example := @C73_eq_mask release64 eqRows[0] true (by simp)

example := @C74_determinant (BitVec 8) inferInstance 4 (fun _ => (fun _ => 1))
  (fun _ => (fun _ => 1)) release64 100 [1, 2, 3, 4, 5] (fun _ => (Vector.replicate _ 0))
  (by decide) (by decide) (by decide) (by decide) (by decide)

example := @C75_exact (BitVec 8) 4 release64 [1, 2, 3, 4, 5] (Vector.replicate _ 0) (by decide)
  [IterOp.next] 0 (by decide)

example := @C75_safe_partial (BitVec 8) 16 debug64 [1, 2, 3, 4, 5] (Vector.replicate _ 0) 1 []
  (by decide) (by decide) (by decide)

example := @C76_in_order_from_partial (BitVec 8) 4 release64 [1, 2, 3, 4, 5]
  (Vector.replicate _ 0) (by decide) [IterOp.next] 0 _ _ (by decide) (by decide) rfl

example := @C76_in_order_partial (BitVec 8) 4 release64 [1, 2, 3, 4, 5] (Vector.replicate _ 0)
  (by decide) [IterOp.next] _ _ (by decide) rfl

example := @C76_complete_from (BitVec 8) 4 release64 [1, 2, 3, 4, 5] (Vector.replicate _ 0)
  (by decide) [IterOp.next] 0 _ _ (by decide) (by decide) rfl

example := @C76_runs (BitVec 8) 4 release64 [1, 2, 3, 4, 5] (Vector.replicate _ 0) (by decide)
  [IterOp.next] 0 _ _ (by decide) rfl

example := @C76_at_most (BitVec 8) 4 inferInstance inferInstance release64 [1, 2, 3, 4, 5]
  (Vector.replicate _ 0) (by decide) [IterOp.next] 0 _ _ (by decide) rfl 1

example := @C76_repeats (BitVec 8) 4 release64 (by decide) [1, 2, 3, 4] (Vector.replicate _ 0)
  (by decide) (by decide) 8

example := @C77_map_calls (SIMDIter (Slice (BitVec 8) 4) (BitVec 8) 4) Unit (BitVec 8) (BitVec 8)
  4 4 inferInstance inferInstance inferInstance inferInstance release64 _
  (tailBound_slice _ [1, 2, 3, 4, 5] (Vector.replicate 4 0) (by decide) (by decide))
  (fun _ => (fun _ => (ok ((Vector.replicate _ 1), ())))) (by decide) [.next] (exIter 0) _ () _
  ⟨0, by decide⟩ rfl

example := @C77_slice (BitVec 8) 4 inferInstance (BitVec 8) 4 inferInstance release64
  [1, 2, 3, 4, 5] (Vector.replicate _ 0) 0 (by decide) (by decide) (by decide) (by decide)
  (fun _ => (Vector.replicate _ 0)) []

example := @C78_exact (BitVec 8) 4 inferInstance release64 [1, 2, 3, 4, 5] 1 0 (by decide)
  (Vector.replicate _ 0) 100 (by decide) (by decide) (by decide) [] 1 (by decide) (by simp)

example := @C78_safe_partial (BitVec 8) 4 inferInstance release64 [1, 2, 3, 4, 5] 8 0 (by decide)
  (Vector.replicate _ 0) 100 0 [] (by decide) (by decide) (by decide) (by decide) (by simp)
  (by decide)

example := @C78_in_order_partial (BitVec 8) 4 inferInstance release64 [1, 2, 3, 4, 5] 8 0
  (by decide) (Vector.replicate _ 0) 100 (by decide) (by decide) (by decide) [] 0 _ _ (by decide)
  (by simp) rfl

example := @C78_next_release (BitVec 8) 4 inferInstance release64 [1, 2, 3, 4, 5] 2 1 1
  (Vector.replicate _ 0) (by decide)

example := @C78_exact_any (BitVec 8) 4 inferInstance release64 [1, 2, 3, 4, 5] 2 1 (by decide)
  (Vector.replicate _ 0) 1 (by decide) (by decide) (by decide) [IterOp.next]

example := @C78_in_order_debug (BitVec 8) 4 inferInstance debug64 (by decide) [1, 2, 3, 4, 5] 2 1
  (by decide) (Vector.replicate _ 0) (by decide) (by decide) [IterOp.next] 0 _ _ (by decide) rfl

example := @C79_methods debug64 rfl (SIMDIter (Slice (BitVec 8) 4) (BitVec 8) 4) (BitVec 8) 4
  inferInstance inferInstance (exIter 0) (.base (.slice _ _))

example := @C79_consumers debug64 rfl (SIMDIter (Slice (BitVec 8) 4) (BitVec 8) 4) (BitVec 8) 4
  inferInstance inferInstance (exIter 0) inferInstance (by decide) (.base (.slice _ _)) 100

example := @C79_zip_methods debug64 rfl
  (Zip (SIMDIter (Slice (BitVec 8) 4) (BitVec 8) 4) (SIMDIter (Slice (BitVec 8) 4) (BitVec 8) 4 × Unit))
  (Vector (BitVec 8) 4 × Vector (BitVec 8) 4 × Unit) inferInstance _
  (.zip (.base (.slice [1, 2, 3, 4, 5] (Vector.replicate 4 0))) (.cons (.slice [6, 7, 8, 9, 10] (Vector.replicate 4 0)) .nil) rfl)

example := @C79_slice_for_each debug64 (BitVec 8) Unit 4 inferInstance rfl [1, 2, 3, 4, 5]
  (Vector.replicate _ 0) 0 (fun _ => (fun _ => (ok ((Vector.replicate _ 1), ()))))
  (fun _ _ => trivial) 100 ()

example := @C79_slice (BitVec 8) 4 debug64 (by decide)

example := @C79_iter (Slice (BitVec 8) 4) (BitVec 8) 4 inferInstance inferInstance debug64 rfl
  (fun _ => True) (C79_slice rfl)

example := @C79_stride_array (Slice (BitVec 8) 4) (BitVec 8) 4 inferInstance inferInstance
  inferInstance debug64 rfl (fun _ => True) (C79_slice rfl)

example := @C79_stride (Slice (BitVec 8) 4) (BitVec 8) 4 inferInstance inferInstance inferInstance
  debug64 rfl (fun _ => True) (C79_slice rfl)

example := @C79_map (SIMDIter (Slice (BitVec 8) 4) (BitVec 8) 4) Unit (BitVec 8) (BitVec 8) 4 4
  inferInstance inferInstance inferInstance inferInstance debug64 rfl (fun _ => True)
  (C79_iter rfl (C79_slice rfl))

example := @C79_adapter (BitVec 8) 4 debug64 (by decide)

example := @C79_rest_cons (SIMDIter (Slice (BitVec 8) 4) (BitVec 8) 4)
  (SIMDIter (Slice (BitVec 8) 4) (BitVec 8) 4 × Unit) (BitVec 8) (Vector (BitVec 8) 4 × Unit) 4
  inferInstance inferInstance inferInstance inferInstance debug64 rfl _ _
  (C79_iter rfl (C79_slice rfl)).toSafeIterable (simdIter_safeArray (C79_slice rfl))
  (C79_rest_cons rfl (C79_iter rfl (C79_slice rfl)).toSafeIterable (simdIter_safeArray (C79_slice rfl)) C79_rest_nil)

example := @C79_zip_new (SIMDIter (Slice (BitVec 8) 4) (BitVec 8) 4)
  (SIMDIter (Slice (BitVec 8) 4) (BitVec 8) 4 × Unit) (BitVec 8) (Vector (BitVec 8) 4 × Unit) 4
  inferInstance inferInstance inferInstance debug64 _ _ (C79_iter rfl (C79_slice rfl))
  (C79_rest_cons rfl (C79_iter rfl (C79_slice rfl)).toSafeIterable (simdIter_safeArray (C79_slice rfl)) C79_rest_nil)
  (exIter 0) exRest trivial (by decide)

example := @C79_zip (SIMDIter (Slice (BitVec 8) 4) (BitVec 8) 4)
  (SIMDIter (Slice (BitVec 8) 4) (BitVec 8) 4 × Unit) (BitVec 8) (Vector (BitVec 8) 4 × Unit) 4
  inferInstance inferInstance inferInstance inferInstance debug64 _ _
  (C79_iter rfl (C79_slice rfl))
  (C79_rest_cons rfl (C79_iter rfl (C79_slice rfl)).toSafeIterable (simdIter_safeArray (C79_slice rfl)) C79_rest_nil)

example := @C79_stride_zip (SIMDIter (Slice (BitVec 8) 4) (BitVec 8) 4) (BitVec 8) 4 inferInstance
  inferInstance inferInstance debug64 rfl (fun _ => True) (C79_iter rfl (C79_slice rfl))

example := @C79_zip_map
  (Zip (SIMDIter (Slice (BitVec 8) 4) (BitVec 8) 4) (SIMDIter (Slice (BitVec 8) 4) (BitVec 8) 4 × Unit))
  Unit (Vector (BitVec 8) 4 × Vector (BitVec 8) 4 × Unit) (BitVec 8) 4 inferInstance inferInstance
  debug64 rfl _
  (C79_zip (C79_iter rfl (C79_slice rfl)) (C79_rest_cons rfl (C79_iter rfl (C79_slice rfl)).toSafeIterable (simdIter_safeArray (C79_slice rfl)) C79_rest_nil))

example := @C79_reduce (SIMDIter (Slice (BitVec 8) 4) (BitVec 8) 4) (BitVec 8) 4 inferInstance
  inferInstance debug64 (fun _ => True) Nat Unit (C79_iter rfl (C79_slice rfl))
  (fun _ => (fun _ => (fun _ => (ok (1, ()))))) (fun _ _ _ => trivial) 100 (exIter 0) 1 () trivial

example := @C79_do_each (SIMDIter (Slice (BitVec 8) 4) (BitVec 8) 4) (BitVec 8) 4 inferInstance
  inferInstance debug64 (fun _ => True) Unit (C79_iter rfl (C79_slice rfl))
  (fun _ => (fun _ => (ok ((), ())))) (fun _ _ => trivial) 100 (exIter 0) () trivial

example := @C79_fill (SIMDIter (Slice (BitVec 8) 4) (BitVec 8) 4) (BitVec 8) 4 inferInstance
  inferInstance debug64 (fun _ => True) inferInstance rfl (C79_iter rfl (C79_slice rfl)) 100
  (exIter 0) [1, 2, 3, 4, 5] trivial

example := @C79_collect (SIMDIter (Slice (BitVec 8) 4) (BitVec 8) 4) (BitVec 8) 4 inferInstance
  inferInstance debug64 (fun _ => True) inferInstance rfl (C79_iter rfl (C79_slice rfl)) 100
  (exIter 0) trivial

example := @C79_fill_all (SIMDIter (Slice (BitVec 8) 4) (BitVec 8) 4) (BitVec 8) 4 inferInstance
  inferInstance debug64 (fun _ => True) rfl (C79_iter rfl (C79_slice rfl)) 100 (exIter 0)
  [1, 2, 3, 4, 5] trivial

example := @C79_collect_all (SIMDIter (Slice (BitVec 8) 4) (BitVec 8) 4) (BitVec 8) 4
  inferInstance inferInstance debug64 (fun _ => True) rfl (by decide)
  (C79_iter rfl (C79_slice rfl)) 100 (exIter 0) trivial

end Faster
