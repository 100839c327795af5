import Verif.Witness.Common

/-!
# Concrete states meeting the hypotheses: C01 to C14

Every line applies one of the claimed theorems to concrete arguments, with all
its hypotheses proved: none of them is vacuous.
-/

namespace Faster
open Res

set_option maxRecDepth 4000
set_option linter.all false

example := @C01_map_collect (BitVec 8) (BitVec 8) inferInstance inferInstance 4 release64 100
  [1, 2, 3, 4, 5] (Vector.replicate _ 0) (fun _ => 1) (by decide) (by decide) (by decide)
  (by decide) (by decide) (by decide)

example := @C02_do_each_calls (BitVec 8) Unit 4 release64 100 [1, 2, 3, 4, 5]
  (Vector.replicate _ 0) () (fun _ => (fun _ => (ok ((), ())))) (by decide) (by decide)
  (by decide)

example := @C02_do_each_log (BitVec 8) 4 release64 100 [1, 2, 3, 4, 5] (Vector.replicate _ 1)
  (by decide) (by decide) (by decide)

example := @C02_map_reduce (BitVec 8) (BitVec 8) Nat Unit Unit inferInstance inferInstance 4 4
  release64 100 [1, 2, 3, 4, 5] (Vector.replicate _ 0) 1 () ()
  (fun _ => (fun _ => (ok ((Vector.replicate _ 0), ()))))
  (fun _ => (fun _ => (fun _ => (ok (1, ()))))) (by decide) (by decide) (by decide) (by decide)
  (by decide)

example := @C02_map_do_each (BitVec 8) (BitVec 8) Unit Unit inferInstance inferInstance 4 4
  release64 100 [1, 2, 3, 4, 5] (Vector.replicate _ 0) () ()
  (fun _ => (fun _ => (ok ((Vector.replicate _ 0), ())))) (fun _ => (fun _ => (ok ((), ()))))
  (by decide) (by decide) (by decide) (by decide) (by decide)

example := @C02_at (SIMDIter (Slice (BitVec 8) 4) (BitVec 8) 4) (BitVec 8) Unit 4 inferInstance
  inferInstance release64 exIter [1, 2, 3, 4, 5] (Vector.replicate _ 0) (fun p => p + 4 ≤ 5)
  (2 ^ 64 - 4) (simdIter_everywhere (represents_slice _ _) _ (by decide) (by decide)) 100 ()
  (fun _ => (fun _ => (ok ((), ())))) 0 (by decide) (by decide) 1 (by decide) (by decide)
  (by decide)

example := @C03_reduce_fold (BitVec 8) Nat Unit 4 release64 100 [1, 2, 3, 4, 5]
  (Vector.replicate _ 0) 1 () (fun _ => (fun _ => (fun _ => (ok (1, ()))))) (by decide)
  (by decide) (by decide)

example := @C03_reduce_foldl (BitVec 8) Nat 4 release64 100 [1, 2, 3, 4, 5] (Vector.replicate _ 0)
  1 (fun _ => (fun _ => 1)) (by decide) (by decide) (by decide)

example := @C03_reduce_empty (BitVec 8) Nat Unit 4 release64 100 (Vector.replicate _ 0) 1 ()
  (fun _ => (fun _ => (fun _ => (ok (1, ()))))) (by decide) (by decide) (by decide)

example := @C03_at (SIMDIter (Slice (BitVec 8) 4) (BitVec 8) 4) (BitVec 8) Unit 4 inferInstance
  inferInstance release64 exIter [1, 2, 3, 4, 5] (Vector.replicate _ 0) (fun p => p + 4 ≤ 5)
  (2 ^ 64 - 4) Nat (simdIter_everywhere (represents_slice _ _) _ (by decide) (by decide)) 100 1 ()
  (fun _ => (fun _ => (fun _ => (ok (1, ()))))) 0 (by decide) (by decide) 1 (by decide)
  (by decide) (by decide)

example := @C04_monoid_reduce Unit 4 release64 100 [1, 2, 3, 4, 5] (fun _ => (fun _ => ())) ()
  (by decide) (by decide) (by decide) (by decide) (by decide) (by decide)

example := @C05_collect_any_closure (BitVec 8) (BitVec 8) Unit inferInstance inferInstance 4 4
  release64 100 [1, 2, 3, 4, 5] (Vector.replicate _ 1) ()
  (fun _ => (fun _ => (ok ((Vector.replicate _ 1), ())))) (by decide) (by decide) (by decide) rfl
  (by decide) (by decide) (by decide) (by decide)

example := @C05_length (BitVec 8) (BitVec 8) Unit inferInstance inferInstance 4 4 [1, 2, 3, 4, 5]
  (Vector.replicate _ 0) () _ (fun _ => (fun _ => (ok ((Vector.replicate _ 0), ())))) _ rfl

example := @C06_widening_collect (BitVec 8) (BitVec 8) inferInstance inferInstance 4 4 1 release64
  100 [1, 2, 3, 4, 5] (Vector.replicate _ 1) (fun x => [x]) (fun x => x)
  (by intros; first | rfl | simp | omega | decide)
  (by intros; first | rfl | simp | omega | decide) (by decide) (by decide) rfl (by decide) rfl
  (by decide) (by decide) (by decide) (by decide)

example := @C07_fill_any_closure (BitVec 8) (BitVec 8) Unit inferInstance inferInstance 4 4
  release64 100 [1, 2, 3, 4, 5] (Vector.replicate _ 0) ()
  (fun _ => (fun _ => (ok ((Vector.replicate _ 0), ())))) [1, 2, 3, 4, 5] (by decide) (by decide)
  (by decide) (by decide) (by decide) (by decide) (by decide) (by decide) (by decide)

example := @C07_fill (BitVec 8) (BitVec 8) inferInstance inferInstance 4 release64 100
  [1, 2, 3, 4, 5] (Vector.replicate _ 0) (fun _ => 1) [1, 2, 3, 4, 5] (by decide) (by decide)
  (by decide) (by decide) (by decide) (by decide) (by decide)

example := @C08_fill_out_of_bounds (BitVec 8) (BitVec 8) inferInstance inferInstance 4 release64
  100 [1, 2, 3, 4, 5] (Vector.replicate _ 0) (fun _ => 5) [1, 2, 3, 4] (by decide) (by decide)
  (by decide) (by decide) (by decide) (by decide) (by decide) (by decide) (by decide)

example := @C08_fill_short_panics_partial (BitVec 8) (BitVec 8) inferInstance inferInstance 4
  debug64 100 [1, 2, 3, 4, 5] (Vector.replicate _ 0) (fun _ => 1) [1, 2, 3, 4] (by decide)
  (by decide) (by decide) (by decide) (by decide) (by decide) (by decide) (by decide)

example := @C08_fill_outcome (BitVec 8) (BitVec 8) Unit inferInstance inferInstance 4 4 release64
  100 [1, 2, 3, 4, 5] (Vector.replicate _ 0) ()
  (fun _ => (fun _ => (ok ((Vector.replicate _ 0), ())))) [1, 2, 3, 4, 5] (by decide) (by decide)
  (by decide) _ _ rfl rfl (by decide) (by decide) (by decide)

example := @C08_ub_iff (BitVec 8) (BitVec 8) inferInstance inferInstance 4 4 release64 100
  [1, 2, 3, 4, 5] (Vector.replicate _ 0) (fun _ => (Vector.replicate _ 0)) [1, 2, 3, 4, 5]
  (by decide) (by decide) (by decide) _ _ rfl rfl (by decide) (by decide) (by decide)

example := @C08_fill_driver (SIMDIter (Slice (BitVec 8) 4) (BitVec 8) 4) (BitVec 8) (BitVec 8)
  Unit 4 4 inferInstance inferInstance inferInstance inferInstance release64 exIter
  [1, 2, 3, 4, 5] (Vector.replicate _ 0) (fun p => p + 4 ≤ 5)
  (simdIter_driver (represents_slice _ _) _ (by decide) (by decide)) 100 ()
  (fun _ => (fun _ => (ok ((Vector.replicate _ 0), ())))) [1, 2, 3, 4, 5] (by decide) (by decide)
  (by decide) 1 _ (by decide) (by decide) rfl (by decide) (by decide)

example := @C08_fill_stride (BitVec 8) (BitVec 8) Unit 4 4 inferInstance inferInstance release64
  100 [1, 2, 3, 4, 5] 2 1 (by decide) (Vector.replicate _ 0) ()
  (fun _ => (fun _ => (ok ((Vector.replicate _ 0), ())))) [1, 2, 3, 4, 5] (by decide) (by decide)
  (by decide) _ _ rfl rfl (by decide) (by decide) (by decide)

example := @C08_ub_driver (SIMDIter (Slice (BitVec 8) 4) (BitVec 8) 4) (BitVec 8) (BitVec 8) 4 4
  inferInstance inferInstance inferInstance inferInstance release64 exIter [1, 2, 3, 4, 5]
  (Vector.replicate _ 0) (fun p => p + 4 ≤ 5)
  (simdIter_driver (represents_slice _ _) _ (by decide) (by decide)) 100
  (fun _ => (Vector.replicate _ 0)) [1, 2, 3, 4, 5] (by decide) (by decide) (by decide) 1 _
  (by decide) (by decide) rfl (by decide) (by decide)

example := @C08_fill_zip (SIMDIter (Slice (BitVec 8) 4) (BitVec 8) 4)
  (SIMDIter (Slice (BitVec 8) 4) (BitVec 8) 4 × Unit) (BitVec 8) (Vector (BitVec 8) 4 × Unit)
  (BitVec 8 × Unit) 4 inferInstance inferInstance inferInstance inferInstance inferInstance
  release64 exFirst exRest exRows exDv (fun p => p + 4 ≤ 5) (BitVec 8) Unit inferInstance 4
  (simdIter_driver (represents_slice _ _) _ (by decide) (by decide)) (by decide)
  ⟨repIter_simdIter _ _ _ _ (by decide) (by decide), trivial⟩ (by decide) 100 ()
  (fun _ => (fun _ => (ok ((Vector.replicate _ 0), ())))) [1, 2, 3, 4, 5] (by decide) (by decide)
  1 _ (by decide) (by decide) rfl (by decide) (by decide)

example := @C08_fill_at (SIMDIter (Slice (BitVec 8) 4) (BitVec 8) 4) (BitVec 8) (BitVec 8) Unit 4
  4 inferInstance inferInstance inferInstance inferInstance release64 exIter [1, 2, 3, 4, 5]
  (Vector.replicate _ 0) (fun p => p + 4 ≤ 5) (2 ^ 64 - 4)
  (simdIter_everywhere (represents_slice _ _) _ (by decide) (by decide)) 100 ()
  (fun _ => (fun _ => (ok ((Vector.replicate _ 0), ())))) [1, 2, 3, 4, 5] 0 (by decide)
  (by decide) (by decide) (by decide) 1 _ (by decide) (by decide) rfl (by decide) (by decide)

example := @C08_fill_at_slice (BitVec 8) (BitVec 8) Unit 4 4 inferInstance inferInstance release64
  100 [1, 2, 3, 4, 5] (Vector.replicate _ 0) ()
  (fun _ => (fun _ => (ok ((Vector.replicate _ 0), ())))) [1, 2, 3, 4, 5] 0 (by decide)
  (by decide) (by decide) (by decide) _ _ rfl rfl (by decide) (by decide) (by decide)

example := @C08_fill_at_stride (BitVec 8) (BitVec 8) Unit 4 4 inferInstance inferInstance
  release64 100 [1, 2, 3, 4, 5] 2 1 (by decide) (Vector.replicate _ 0) ()
  (fun _ => (fun _ => (ok ((Vector.replicate _ 0), ())))) [1, 2, 3, 4, 5] 0 (by decide)
  (by decide) (by decide) (by decide) _ _ rfl rfl (by decide) (by decide) (by decide)

example := @C08_ub_at (SIMDIter (Slice (BitVec 8) 4) (BitVec 8) 4) (BitVec 8) (BitVec 8) 4 4
  inferInstance inferInstance inferInstance inferInstance release64 exIter [1, 2, 3, 4, 5]
  (Vector.replicate _ 0) (fun p => p + 4 ≤ 5) (2 ^ 64 - 4)
  (simdIter_everywhere (represents_slice _ _) _ (by decide) (by decide)) 100
  (fun _ => (Vector.replicate _ 0)) [1, 2, 3, 4, 5] 0 (by decide) (by decide) (by decide)
  (by decide) 1 _ (by decide) (by decide) rfl (by decide) (by decide)

example := @C08_plain_at (SIMDIter (Slice (BitVec 8) 4) (BitVec 8) 4) (BitVec 8) 4 inferInstance
  inferInstance inferInstance release64 exIter [1, 2, 3, 4, 5] (Vector.replicate _ 0)
  (fun p => p + 4 ≤ 5) (2 ^ 64 - 4)
  (simdIter_everywhere (represents_slice _ _) _ (by decide) (by decide)) 100 [1, 2, 3, 4, 5] 0
  (by decide) (by decide) 1 (by decide) (by decide) (by decide) (by decide)

example := @C08_zip_at (SIMDIter (Slice (BitVec 8) 4) (BitVec 8) 4)
  (SIMDIter (Slice (BitVec 8) 4) (BitVec 8) 4 × Unit) (BitVec 8) (Vector (BitVec 8) 4 × Unit)
  (BitVec 8 × Unit) 4 inferInstance inferInstance inferInstance inferInstance inferInstance
  release64 exFirst exRest exRows exDv (fun p => p + 4 ≤ 5) (2 ^ 64 - 4) (BitVec 8) Unit
  inferInstance 4 (simdIter_everywhere (represents_slice _ _) _ (by decide) (by decide))
  (by decide) ⟨repIter_simdIter _ _ _ _ (by decide) (by decide), trivial⟩ (by decide) 100 ()
  (fun _ => (fun _ => (ok ((Vector.replicate _ 0), ())))) [1, 2, 3, 4, 5] 0 (by decide)
  (by decide) (by decide) 1 _ (by decide) (by decide) rfl (by decide) (by decide)

example := @C09_collect_at (BitVec 8) inferInstance 4 release64 100 [1, 2, 3, 4, 5]
  (Vector.replicate _ 0) 0 (by decide) (by decide) (by decide) (by decide)

example := @C09_collect_initialised_partial (BitVec 8) inferInstance 4 release64 100
  [1, 2, 3, 4, 5] (Vector.replicate _ 0) 0 (by decide) (by decide) (by decide) (by decide)
  (by decide)

example := @C09_map_driver (SIMDIter (Slice (BitVec 8) 4) (BitVec 8) 4) Unit (BitVec 8) (BitVec 8)
  4 4 inferInstance inferInstance inferInstance inferInstance release64 exIter [1, 2, 3, 4, 5]
  (Vector.replicate _ 0) (fun p => p + 4 ≤ 5) inferInstance
  (simdIter_driver (represents_slice _ _) _ (by decide) (by decide)) 100 ()
  (fun _ => (fun _ => (ok ((Vector.replicate _ 0), ())))) 0 (by decide) (by decide) (by decide)
  (by decide) (by decide) (by decide) (by decide) (by decide) (by decide)

example := @C09_map_slice Unit (BitVec 8) (BitVec 8) 4 4 inferInstance inferInstance release64 100
  [1, 2, 3, 4, 5] (Vector.replicate _ 0) ()
  (fun _ => (fun _ => (ok ((Vector.replicate _ 0), ())))) 0 (by decide) (by decide) (by decide)
  (by decide) (by decide) (by decide) (by decide) (by decide) (by decide)

example := @C09_map_uninit_iff Unit (BitVec 8) (BitVec 8) 4 4 inferInstance inferInstance
  release64 100 [1, 2, 3, 4, 5] (Vector.replicate _ 1) ()
  (fun _ => (fun _ => (ok ((Vector.replicate _ 1), ())))) 4 (by decide) (by decide) (by decide)
  (by decide) (by decide) (by decide) (by decide) (by decide) (by decide) _ _ rfl

example := @C09_map_stride Unit (BitVec 8) (BitVec 8) 4 4 inferInstance inferInstance release64
  100 [1, 2, 3, 4, 5] 2 1 (by decide) (Vector.replicate _ 0) ()
  (fun _ => (fun _ => (ok ((Vector.replicate _ 0), ())))) 0 (by decide) (by decide) (by decide)
  (by decide) (by decide) (by decide) (by decide) (by decide) (by decide) (by decide)

example := @C09_map_zip (SIMDIter (Slice (BitVec 8) 4) (BitVec 8) 4)
  (SIMDIter (Slice (BitVec 8) 4) (BitVec 8) 4 × Unit) (BitVec 8) (Vector (BitVec 8) 4 × Unit)
  (BitVec 8 × Unit) 4 inferInstance inferInstance inferInstance inferInstance inferInstance
  release64 exFirst exRest exRows exDv (fun p => p + 4 ≤ 5) (BitVec 8) Unit inferInstance 4
  inferInstance (simdIter_driver (represents_slice _ _) _ (by decide) (by decide)) (by decide)
  ⟨repIter_simdIter _ _ _ _ (by decide) (by decide), trivial⟩ (by decide) 100 ()
  (fun _ => (fun _ => (ok ((Vector.replicate _ 0), ())))) 0 (by decide) (by decide) (by decide)
  (by decide) (by decide) (by decide) (by decide) (by decide)

example := @C09_collect_any (SIMDIter (Slice (BitVec 8) 4) (BitVec 8) 4) (BitVec 8) (BitVec 8)
  Unit 4 4 inferInstance inferInstance inferInstance inferInstance release64 exIter
  [1, 2, 3, 4, 5] (Vector.replicate _ 0) (fun p => p + 4 ≤ 5) (2 ^ 64 - 4)
  (simdIter_everywhere (represents_slice _ _) _ (by decide) (by decide)) 100 ()
  (fun _ => (fun _ => (ok ((Vector.replicate _ 0), ())))) 0 (by decide) (by decide) (by decide)
  (by decide) 1 _ (by decide) (by decide) rfl (by decide) (by decide)

example := @C09_collect_any_slice (BitVec 8) (BitVec 8) Unit 4 4 inferInstance inferInstance
  release64 100 [1, 2, 3, 4, 5] (Vector.replicate _ 0) ()
  (fun _ => (fun _ => (ok ((Vector.replicate _ 0), ())))) 0 (by decide) (by decide) (by decide)
  (by decide) _ _ rfl rfl (by decide) (by decide) (by decide)

example := @C09_initialised_iff (SIMDIter (Slice (BitVec 8) 4) (BitVec 8) 4) (BitVec 8) (BitVec 8)
  4 4 inferInstance inferInstance inferInstance inferInstance release64 exIter [1, 2, 3, 4, 5]
  (Vector.replicate _ 0) (fun p => p + 4 ≤ 5) (2 ^ 64 - 4)
  (simdIter_everywhere (represents_slice _ _) _ (by decide) (by decide)) 100
  (fun _ => (Vector.replicate _ 0)) 0 (by decide) (by decide) (by decide) (by decide) 1 _
  (by decide) (by decide) rfl (by decide) (by decide)

example := @C09_plain_at (SIMDIter (Slice (BitVec 8) 4) (BitVec 8) 4) (BitVec 8) 4 inferInstance
  inferInstance inferInstance release64 exIter [1, 2, 3, 4, 5] (Vector.replicate _ 0)
  (fun p => p + 4 ≤ 5) (2 ^ 64 - 4)
  (simdIter_everywhere (represents_slice _ _) _ (by decide) (by decide)) 100 0 (by decide)
  (by decide) 1 (by decide) (by decide) (by decide) (by decide)

example := @C09_plain_stride (BitVec 8) 4 inferInstance release64 100 [1, 2, 3, 4, 5] 2 1
  (by decide) (Vector.replicate _ 0) 0 (by decide) (by decide) _ rfl (by decide) (by decide)
  (by decide)

example := @C09_zip_any (SIMDIter (Slice (BitVec 8) 4) (BitVec 8) 4)
  (SIMDIter (Slice (BitVec 8) 4) (BitVec 8) 4 × Unit) (BitVec 8) (Vector (BitVec 8) 4 × Unit)
  (BitVec 8 × Unit) 4 inferInstance inferInstance inferInstance inferInstance inferInstance
  release64 exFirst exRest exRows exDv (fun p => p + 4 ≤ 5) (2 ^ 64 - 4) (BitVec 8) Unit
  inferInstance 4 (simdIter_everywhere (represents_slice _ _) _ (by decide) (by decide))
  (by decide) ⟨repIter_simdIter _ _ _ _ (by decide) (by decide), trivial⟩ (by decide) 100 ()
  (fun _ => (fun _ => (ok ((Vector.replicate _ 0), ())))) 0 (by decide) (by decide) (by decide) 1
  _ (by decide) (by decide) rfl (by decide) (by decide)

example := @C10_for_each_any_closure (BitVec 8) Unit inferInstance 4 release64 100 [1, 2, 3, 4]
  (Vector.replicate _ 0) () () (fun _ => (fun _ => (ok ((Vector.replicate _ 0), ()))))
  [(Vector.replicate _ 0)] (by decide) (by decide) (by decide) (by decide)

example := @C10_for_each (BitVec 8) inferInstance 4 release64 100 [1, 2, 3, 4, 5]
  (Vector.replicate _ 0) (fun _ => 1) (by decide) (by decide) (by decide)

example := @C11_for_each_consumed (BitVec 8) Unit inferInstance 4 release64 100 [1, 2, 3, 4, 5]
  (Vector.replicate _ 0) (Vector.replicate _ 0) () ()
  (fun _ => (fun _ => (ok ((Vector.replicate _ 0), ())))) 4 (by decide) (by decide) (by decide)
  (by decide) (by decide) (by decide) (by decide)

example := @C11_for_each_remaining_partial (BitVec 8) inferInstance 4 release64 100
  [1, 2, 3, 4, 5] (Vector.replicate _ 0) (fun _ => 1) 0 (by decide) (by decide) (by decide)
  (by decide) (by decide)

example := @C11_any_closure_partial (BitVec 8) Unit inferInstance 4 release64 100 [1, 2, 3, 4, 5]
  (Vector.replicate _ 0) () (fun _ => (fun _ => (ok ((Vector.replicate _ 0), ())))) 0 _ _
  (by decide) (by decide) (by decide) (by decide) (by decide) rfl

example := @C11_panic_partial (BitVec 8) Unit inferInstance 2 release64 100 [1, 2, 3, 4]
  (Vector.replicate _ 0) () (fun _ => (fun _ => Res.panic)) 0 _ _ 0 _ (by decide) (by decide)
  (by decide) (by decide) rfl rfl rfl

example := @C11_small_rest (BitVec 8) Unit inferInstance 8 release64 100 [1, 2, 3, 4, 5]
  (Vector.replicate _ 0) () (fun _ => (fun _ => (ok ((Vector.replicate _ 0), ())))) 4 (by decide)
  (by decide) (by decide) (by decide) (by decide) (by decide)

example := @C13_end_out_of_bounds (BitVec 8) 16 release64 [1, 2, 3, 4, 5] (Vector.replicate _ 0) 4
  (by decide) (by decide) (by decide) (by decide)

example := @C13_end_safe_partial (BitVec 8) 4 release64 [1, 2, 3, 4, 5] (Vector.replicate _ 0) 0
  (by decide) (by decide)

example := @C13_end_ub_iff (Slice (BitVec 8) 4) (BitVec 8) 4 inferInstance inferInstance release64
  ⟨[1, 2, 3, 4, 5]⟩ [1, 2, 3, 4, 5] (represents_slice _ _) 0 (Vector.replicate _ 0) (by decide)

example := @C13_stride_ub_iff (Slice (BitVec 8) 4) (BitVec 8) 4 inferInstance inferInstance
  inferInstance release64 ⟨[1, 2, 3, 4, 5]⟩ [1, 2, 3, 4, 5] (represents_slice _ _) 2 1 (by decide)
  (Vector.replicate _ 0) (by decide) (by decide) 0

example := @C13_adapter_ub_iff (BitVec 8) 4 release64 (Vector.replicate _ 0)
  (Vector.replicate _ 0) 0 [1, 2, 3, 4, 5] (by decide) (by decide) (by decide)

example := @C13_map_ub_iff (SIMDIter (Slice (BitVec 8) 4) (BitVec 8) 4) (BitVec 8) (BitVec 8) Unit
  4 4 inferInstance inferInstance inferInstance inferInstance release64 (exIter 0) ()
  (fun _ => (fun _ => (ok ((Vector.replicate _ 1), ())))) (by decide)
  (by intro _ _ _ h; cases h <;> decide)

example := @C13_zip_ub_iff (SIMDIter (Slice (BitVec 8) 4) (BitVec 8) 4 × Unit) (BitVec 8)
  (Vector (BitVec 8) 4 × Unit) (BitVec 8 × Unit) 4 inferInstance inferInstance inferInstance
  release64 exRest exRows exDv (Slice (BitVec 8) 4) inferInstance inferInstance ⟨[1, 2, 3, 4, 5]⟩
  (represents_slice _ _) 0 ⟨repIter_simdIter _ _ _ _ (by decide) (by decide), trivial⟩ (by decide)

example := @C13_zip_map_ub_iff
  (Zip (SIMDIter (Slice (BitVec 8) 4) (BitVec 8) 4) (SIMDIter (Slice (BitVec 8) 4) (BitVec 8) 4 × Unit))
  (Vector (BitVec 8) 4 × Vector (BitVec 8) 4 × Unit) (BitVec 8) Unit 4 inferInstance inferInstance
  release64 ⟨exFirst 0, exRest⟩ () (fun _ => (fun _ => (ok ((Vector.replicate _ 1), ()))))
  (by decide) (by intro _ _ _ h; cases h <;> decide)

example := @C14_end_contents_partial (BitVec 8) 4 release64 [1, 2, 3, 4, 5] (Vector.replicate _ 0)
  4 (by decide) (by decide) (by decide)

example := @C14_lanes (BitVec 8) 16 (Vector.replicate _ 0) [1, 2, 3, 4, 5] (by decide) 1
  (by decide)

end Faster
