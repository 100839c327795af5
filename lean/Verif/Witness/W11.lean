import Verif.Witness.Common

/-!
# Concrete states meeting the hypotheses: C136 to C146

Every line applies one of the claimed theorems to concrete arguments, with all
its hypotheses proved: none of them is vacuous.
-/

namespace Faster
open Res

set_option maxRecDepth 4000
set_option linter.all false

example := @C136_exact (BitVec 8) 4 release64 [1, 2, 3, 4, 5] (Vector.replicate _ 1) (by decide)
  [IterOp.next] 0 (by decide)

example := @C136_do_each (Slice (BitVec 8) 4) (BitVec 8) 4 inferInstance inferInstance Unit
  release64 ⟨[1, 2, 3, 4, 5]⟩ [1, 2, 3, 4, 5] (represents_slice _ _) 100 (Vector.replicate _ 1) ()
  (fun _ => (fun _ => (ok ((), ())))) (by decide) (by decide) (by decide)

example := @C136_reduce (Slice (BitVec 8) 4) (BitVec 8) 4 inferInstance inferInstance (BitVec 8)
  Unit release64 ⟨[1, 2, 3, 4, 5]⟩ [1, 2, 3, 4, 5] (represents_slice _ _) 100
  (Vector.replicate _ 0) 1 () (fun _ => (fun _ => (fun _ => (ok (1, ()))))) (by decide)
  (by decide) (by decide)

example := @C136_collect (Slice (BitVec 8) 4) (BitVec 8) 4 inferInstance inferInstance
  inferInstance (BitVec 8) Unit inferInstance 4 release64 ⟨[1, 2, 3, 4, 5]⟩ [1, 2, 3, 4, 5]
  (represents_slice _ _) 100 (Vector.replicate _ 1) ()
  (fun _ => (fun _ => (ok ((Vector.replicate _ 1), ())))) (by decide) (by decide) (by decide) rfl
  (by decide) (by decide) (by decide) (by decide)

example := @C136_stride (Slice (BitVec 8) 4) (BitVec 8) 4 inferInstance inferInstance
  inferInstance Unit release64 ⟨[1, 2, 3, 4, 5]⟩ [1, 2, 3, 4, 5] (represents_slice _ _) 100 2 1
  (by decide) (Vector.replicate _ 1) () (fun _ => (fun _ => (ok ((), ())))) (by decide)
  (by decide) (by decide)

example := @C137_strided (BitVec 8) 2 1 2 1 (by decide) (by decide) [1, 2, 3, 4, 5]

example := @C137_do_each (Slice (BitVec 8) 4) (BitVec 8) 4 inferInstance inferInstance
  inferInstance Unit release64 ⟨[1, 2, 3, 4, 5]⟩ [1, 2, 3, 4, 5] (represents_slice _ _) 2 1 2 1
  (by decide) (by decide) 0 (Vector.replicate _ 1) (Vector.replicate _ 1) ()
  (fun _ => (fun _ => (ok ((), ())))) 100 (by decide) (by decide) (by decide)

example := @C137_reduce (Slice (BitVec 8) 4) (BitVec 8) 4 inferInstance inferInstance
  inferInstance (BitVec 8) Unit release64 ⟨[1, 2, 3, 4, 5]⟩ [1, 2, 3, 4, 5] (represents_slice _ _)
  2 1 2 1 (by decide) (by decide) 0 (Vector.replicate _ 1) (Vector.replicate _ 0) 1 ()
  (fun _ => (fun _ => (fun _ => (ok (1, ()))))) 100 (by decide) (by decide) (by decide)

example := @C137_collect (Slice (BitVec 8) 4) (BitVec 8) 4 inferInstance inferInstance
  inferInstance (BitVec 8) Unit inferInstance 4 release64 ⟨[1, 2, 3, 4, 5]⟩ [1, 2, 3, 4, 5]
  (represents_slice _ _) 2 1 2 1 (by decide) (by decide) 0 (Vector.replicate _ 1)
  (Vector.replicate _ 1) 100 () (fun _ => (fun _ => (ok ((Vector.replicate _ 1), ()))))
  (by decide) (by decide) (by decide) rfl (by decide) (by decide) (by decide) (by decide)

example := @C137_next (Slice (BitVec 8) 4) (BitVec 8) 4 inferInstance inferInstance inferInstance
  release64 ⟨[1, 2, 3, 4, 5]⟩ [1, 2, 3, 4, 5] (represents_slice _ _) 2 1 2 1 (by decide)
  (by decide) 0 1 (Vector.replicate _ 1) (Vector.replicate _ 1) (by decide) (by decide)
  (by decide)

example := @C137_of_iter (Slice (BitVec 8) 4) (BitVec 8) 4 inferInstance inferInstance
  inferInstance Unit release64 ⟨[1, 2, 3, 4, 5]⟩ [1, 2, 3, 4, 5] (represents_slice _ _) 2 1
  (by decide) 0 (Vector.replicate _ 1) (Vector.replicate _ 1) ()
  (fun _ => (fun _ => (ok ((), ())))) 100 (by decide) (by decide) (by decide)

example := @C138_methods debug64 (SIMDIter (Slice (BitVec 8) 4) (BitVec 8) 4) (BitVec 8) 4
  inferInstance inferInstance inferInstance inferInstance (exIter 0) rfl (.slice _)

example := @C138_consumers debug64 (SIMDIter (Slice (BitVec 8) 4) (BitVec 8) 4) (BitVec 8) 4
  inferInstance inferInstance inferInstance inferInstance (exIter 0) inferInstance rfl (by decide)
  (.slice _) 100

example := @C138_after release64 (SIMDIter (Slice (BitVec 8) 4) (BitVec 8) 4) (BitVec 8) 4
  inferInstance inferInstance inferInstance inferInstance (exIter 0) inferInstance (.slice _) 100

example := @C138_zip_methods debug64
  (Zip (SIMDIter (Slice (BitVec 8) 4) (BitVec 8) 4) (SIMDIter (Slice (BitVec 8) 4) (BitVec 8) 4 × Unit))
  (Vector (BitVec 8) 4 × Vector (BitVec 8) 4 × Unit) inferInstance inferInstance inferInstance _
  rfl
  (.zip (.slice (exFirst 0)) (.cons (.slice [6, 7, 8, 9, 10] (Vector.replicate 4 0)) .nil) rfl)

example := @C138_zip_after release64
  (Zip (SIMDIter (Slice (BitVec 8) 4) (BitVec 8) 4) (SIMDIter (Slice (BitVec 8) 4) (BitVec 8) 4 × Unit))
  (Vector (BitVec 8) 4 × Vector (BitVec 8) 4 × Unit) inferInstance inferInstance inferInstance _
  (.zip (.slice (exFirst 0)) (.cons (.slice [6, 7, 8, 9, 10] (Vector.replicate 4 0)) .nil) rfl)
  100

example := @C138_for_each debug64 (BitVec 8) Unit (BitVec 8) 4 inferInstance rfl (exIter 0)
  (fun _ => (fun _ => (ok ((Vector.replicate _ 1), ()))))
  (fun _ => (fun _ => (ok ((Vector.replicate _ 1), 1)))) (fun _ _ => trivial) 100 100 () 1

example := @C138_adapter_end_panics (BitVec 8) 4 debug64 rfl
  ⟨[1, 2, 3, 4, 5], Vector.replicate _ 0, Vector.replicate _ 0, 0⟩ (by decide) (by decide)
  (by decide)

example := @C139_driver (SIMDIter (Slice (BitVec 8) 4) (BitVec 8) 4) (BitVec 8) (BitVec 8) 4
  inferInstance inferInstance inferInstance inferInstance release64 _ [1, 2, 3, 4, 5]
  (Vector.replicate _ 0) _ (simdIter_driver (represents_slice _ _) _ (by decide) (by decide)) 100
  _ _ (Lifts.pure (fun x => x)) (by decide) (by decide) rfl (by decide) (by decide) (by decide)

example := @C139_exact (BitVec 8) (BitVec 8) 4 inferInstance inferInstance release64 100
  [1, 2, 3, 4, 5] (Vector.replicate _ 0) _ _ (Lifts.pure (fun x => x)) (by decide) (by decide) rfl
  (by decide) (by decide) (by decide)

example := @C139_collect_partial (BitVec 8) (BitVec 8) 4 inferInstance inferInstance release64 100
  [1, 2, 3, 4, 5] (Vector.replicate _ 0) _ _ (Lifts.pure (fun x => x)) (by decide) (by decide) rfl
  (by decide) (by decide) (by decide) (by simp)

example := @C139_panics_iff (BitVec 8) (BitVec 8) 4 inferInstance inferInstance release64 100
  [1, 2, 3, 4, 5] (Vector.replicate _ 0) _ _ (Lifts.pure (fun x => x)) (by decide) (by decide) rfl
  (by decide) (by decide) (by decide)

example := @C139_fill (BitVec 8) (BitVec 8) 4 inferInstance inferInstance release64 100
  [1, 2, 3, 4, 5] (Vector.replicate _ 0) [1, 2, 3, 4, 5] _ _ (Lifts.pure (fun x => x)) (by decide)
  (by decide) rfl (by decide) (by decide) (by decide)

example := @C139_zip (SIMDIter (Slice (BitVec 8) 4) (BitVec 8) 4)
  (SIMDIter (Slice (BitVec 8) 4) (BitVec 8) 4 × Unit) (BitVec 8) (BitVec 8)
  (Vector (BitVec 8) 4 × Unit) (BitVec 8 × Unit) 4 inferInstance inferInstance inferInstance
  inferInstance inferInstance inferInstance release64 exFirst exRest exRows exDv
  (fun p => p + 4 ≤ 5) (simdIter_driver (represents_slice _ _) _ (by decide) (by decide))
  (by decide) ⟨repIter_simdIter _ _ _ _ (by decide) (by decide), trivial⟩ (by decide) 100
  (fun _ => (ok (Vector.replicate _ 1))) (fun _ => (ok 1)) (Lifts.splat _) (by decide) rfl
  (by decide) (by decide)

example := @C139_reduce_total (BitVec 8) (BitVec 8) 4 (fun _ => (fun x => ok x))
  (by intros; first | rfl | simp | omega | decide) [(Vector.replicate _ 1)] (Vector.replicate _ 1)

example := @C139_example_fill 4 release64 100 [1, 2, 3, 4, 5] [1, 2, 3, 4, 5] (by decide)
  (by decide) (by decide) (by decide)

example := @C139_example_strided 4 release64 100 [1, 2, 3, 4, 5] (by decide) (by decide)
  (by decide) (by decide)

example := @C139_example_abs absRowsUnknown[4] (by simp) rfl rfl release64 100 [1, 2, 3, 4, 5]
  (by decide) (by decide) (by decide)

example := @C140_exact (SIMDIter (Slice (BitVec 8) 4) (BitVec 8) 4 × Unit) (BitVec 8)
  (Vector (BitVec 8) 4 × Unit) (BitVec 8 × Unit) 4 inferInstance inferInstance inferInstance
  release64 [1, 2, 3, 4, 5] 1 0 (by decide) exRows exDv exRest rfl
  ⟨repIter_simdIter _ _ _ _ (by decide) (by decide), trivial⟩ 100 (by decide) (by decide)
  (by decide) [ZipOp.next] 0 (by decide)

example := @C140_safe_partial (SIMDIter (Slice (BitVec 8) 4) (BitVec 8) 4 × Unit) (BitVec 8)
  (Vector (BitVec 8) 4 × Unit) (BitVec 8 × Unit) 4 inferInstance inferInstance inferInstance
  release64 [1, 2, 3, 4, 5] 1 0 (by decide) exRows exDv exRest rfl
  ⟨repIter_simdIter _ _ _ _ (by decide) (by decide), trivial⟩ 100 (by decide) (by decide)
  (by decide) [ZipOp.next] 0 (by decide) (by decide)

example := @C140_in_order_partial (SIMDIter (Slice (BitVec 8) 4) (BitVec 8) 4 × Unit) (BitVec 8)
  (Vector (BitVec 8) 4 × Unit) (BitVec 8 × Unit) 4 inferInstance inferInstance inferInstance
  release64 [1, 2, 3, 4, 5] 1 0 (by decide) exRows exDv exRest rfl
  ⟨repIter_simdIter _ _ _ _ (by decide) (by decide), trivial⟩ 100 (by decide) (by decide)
  (by decide) [ZipOp.next] 0 _ _ (by decide) (by decide) rfl

example := @C140_complete (SIMDIter (Slice (BitVec 8) 4) (BitVec 8) 4 × Unit) (BitVec 8)
  (Vector (BitVec 8) 4 × Unit) (BitVec 8 × Unit) 4 inferInstance inferInstance inferInstance
  release64 [1, 2, 3, 4, 5] 1 0 (by decide) exRows exDv exRest rfl
  ⟨repIter_simdIter _ _ _ _ (by decide) (by decide), trivial⟩ 100 (by decide) (by decide)
  (by decide) (by decide) [ZipOp.next] 0 _ _ (by decide) (by decide) rfl

example := @C140_two_safe_partial (BitVec 8) inferInstance 4 release64 [1, 2, 3, 4, 5]
  (Vector.replicate _ 1) (Vector.replicate _ 1) (by decide) 100 0 (by decide) (by decide)
  [ZipOp.next] (by decide) (by decide)

example := @C140_two_in_order_partial (BitVec 8) inferInstance 4 release64 [1, 2, 3, 4, 5]
  (Vector.replicate _ 1) (Vector.replicate _ 1) (by decide) 100 (by decide) (by decide)
  [ZipOp.next] (by decide) (by decide) _ _ rfl

example := @C140_two_complete (BitVec 8) inferInstance 2 release64 [1, 2, 3, 4, 5]
  (Vector.replicate _ 1) (Vector.replicate _ 1) (by decide) (by decide) [ZipOp.next] (by decide) _
  _ _ rfl rfl

example := @C141_lane (BitVec 8) (BitVec 8) 4 release64 100 [1, 2, 3, 4, 5] (Vector.replicate _ 1)
  (Vector.replicate _ 1) (fun _ => (fun _ => 1)) (by decide) (by decide) (by decide)

example := @C141_documented_partial (BitVec 8) (BitVec 8) 4 release64 100 [1, 2, 3, 4]
  (Vector.replicate _ 1) (Vector.replicate _ 1) (fun _ => (fun _ => 1)) (by decide) (by decide)
  (by decide) rfl

example := @C141_twos 4 release64 100 8 (by decide) (by decide) (by decide) (by decide)

example := @C142_do_each (SIMDIter (Slice (BitVec 8) 4) (BitVec 8) 4) (BitVec 8) 4 inferInstance
  inferInstance release64 _ [1, 2, 3, 4, 5] (Vector.replicate _ 1) _ Unit
  (simdIter_driver (represents_slice _ _) _ (by decide) (by decide)) 100 0 ()
  (fun _ => (fun _ => (ok ((), ())))) (by decide) (by decide) (by decide) (by decide)

example := @C142_unmodified_iff (SIMDIter (Slice (BitVec 8) 4) (BitVec 8) 4) (BitVec 8) 4
  inferInstance inferInstance release64 _ [1, 2, 3, 4, 5] (Vector.replicate _ 1) _ Unit
  (simdIter_driver (represents_slice _ _) _ (by decide) (by decide)) 100 0 () _
  (fun _ => (fun _ => (ok ((), ())))) _ (by decide) (by decide) (by decide) (by decide) rfl

example := @C142_unmodified_at (SIMDIter (Slice (BitVec 8) 4) (BitVec 8) 4) (BitVec 8) Unit 4
  inferInstance inferInstance release64 _ [1, 2, 3, 4, 5] (Vector.replicate _ 1) _ (2 ^ 64 - 4)
  (simdIter_everywhere (represents_slice _ _) _ (by decide) (by decide)) 100 () _
  (fun _ => (fun _ => (ok ((), ())))) _ 0 (by decide) (by decide) 1 (by decide) (by decide)
  (by decide) rfl

example := @C142_zip_again_at (SIMDIter (Slice (BitVec 8) 4) (BitVec 8) 4)
  (SIMDIter (Slice (BitVec 8) 4) (BitVec 8) 4 × Unit) (BitVec 8) (Vector (BitVec 8) 4 × Unit)
  (BitVec 8 × Unit) 4 inferInstance inferInstance inferInstance inferInstance inferInstance
  release64 exFirst exRest exRows exDv (fun p => p + 4 ≤ 5) (2 ^ 64 - 4) Unit Unit Nat
  (simdIter_everywhere (represents_slice _ _) _ (by decide) (by decide)) (by decide)
  ⟨repIter_simdIter _ _ _ _ (by decide) (by decide), trivial⟩ (by decide) 100 100 () _ ()
  (fun _ => (fun _ => (ok ((), ())))) (fun _ => (fun _ => (ok ((), ())))) 1
  (fun _ => (fun _ => (fun _ => (ok (1, ()))))) _ 0 (by decide) 1 (by decide) (by decide)
  (by decide) rfl

example := @C143_mask_iff 1 1 1 (by decide) (by decide) (by decide)

example := @C143_types mergeRows[0] (by simp) 1 1 (by decide) (by decide)

example := @C143_mask_read _ 4 2 release64 rfl (by decide) rfl (by decide) (by decide) 1 1
  (by decide)

example := @C143_mask_read_aligned 2 4 1 1 1 (by decide)

example := @C143_chunk_partial (SIMDIter (Slice (BitVec 8) 4) (BitVec 8) 4) (BitVec 8) 4
  inferInstance inferInstance release64
  (.mk (exIter 0) 1 (Vector.replicate _ (Vector.replicate _ 1))) _ _ rfl 1 1 1 (by decide)

example := @C144_collect (SIMDIter (Slice (BitVec 8) 4) (BitVec 8) 4) (BitVec 8) 4 inferInstance
  inferInstance inferInstance release64 100 (exIter 0) _ rfl (by decide) (by decide)

example := @C144_collect_all (SIMDIter (Slice (BitVec 8) 4) (BitVec 8) 4) (BitVec 8) 4
  inferInstance inferInstance inferInstance release64 100 (exIter 0) _ rfl (by decide) (by decide)

example := @C144_room_partial (BitVec 8) (BitVec 8) Unit inferInstance inferInstance 4 4 release64
  100 [1, 2, 3, 4, 5] (Vector.replicate _ 1) ()
  (fun _ => (fun _ => (ok ((Vector.replicate _ 1), ())))) (by decide) (by decide) (by decide) rfl
  (by decide)

example := @C144_slice (BitVec 8) (BitVec 8) Unit inferInstance inferInstance 4 4 release64 100
  [1, 2, 3, 4, 5] (Vector.replicate _ 1) ()
  (fun _ => (fun _ => (ok ((Vector.replicate _ 1), ())))) (by decide) (by decide) rfl (by decide)
  (by decide) (by decide)

example := @C146_iterator (SIMDIter (Slice (BitVec 8) 4) (BitVec 8) 4) (BitVec 8) 4 inferInstance
  inferInstance (exIter 0) (exIter 0) (.cursor _ (.iter (.slice _ _))) 1

example := @C146_consumers (SIMDIter (Slice (BitVec 8) 4) (BitVec 8) 4) (BitVec 8) 4 inferInstance
  inferInstance (exIter 0) (exIter 0) (.cursor _ (.iter (.slice _ _))) inferInstance 1 100

example := @C146_unrolled (SIMDIter (Slice (BitVec 8) 4) (BitVec 8) 4) (BitVec 8) 4 inferInstance
  inferInstance (exIter 0) (exIter 0) (.cursor _ (.iter (.slice _ _))) 1 1
  (Vector.replicate _ (Vector.replicate _ 1))

example := @C146_make_zip (SIMDIter (Slice (BitVec 8) 4) (BitVec 8) 4) (BitVec 8) 4 inferInstance
  inferInstance (exIter 0) (exIter 0) (.cursor _ (.iter (.slice _ _))) inferInstance 1

example := @C146_zip
  (Zip (SIMDIter (Slice (BitVec 8) 4) (BitVec 8) 4) (SIMDIter (Slice (BitVec 8) 4) (BitVec 8) 4 × Unit))
  (Vector (BitVec 8) 4 × Vector (BitVec 8) 4 × Unit) inferInstance ⟨exFirst 0, exRest⟩
  ⟨exFirst 0, exRest⟩ (.zip _ (.cursor _ (.iter (.slice _ _))) (.cons (.iter (.slice _ _)) .nil))
  1

example := @C146_zip_consumers
  (Zip (SIMDIter (Slice (BitVec 8) 4) (BitVec 8) 4) (SIMDIter (Slice (BitVec 8) 4) (BitVec 8) 4 × Unit))
  (Vector (BitVec 8) 4 × Vector (BitVec 8) 4 × Unit) inferInstance ⟨exFirst 0, exRest⟩
  ⟨exFirst 0, exRest⟩ (.zip _ (.cursor _ (.iter (.slice _ _))) (.cons (.iter (.slice _ _)) .nil))
  1 100

example := @C146_array (Slice (BitVec 8) 4) (BitVec 8) 4 inferInstance inferInstance
  (by constructor <;> decide) 1 ⟨[1, 2, 3, 4, 5]⟩

example := @C146_cursor (SIMDIter (Slice (BitVec 8) 4) (BitVec 8) 4) (BitVec 8) 4 inferInstance
  inferInstance inferInstance (.iter (.slice _ _)) 1 (exIter 0)

example := @C146_for_each (BitVec 8) Unit 4 inferInstance 1 100 ()
  (fun _ => (fun _ => (ok ((Vector.replicate _ 1), ()))))
  (fun _ => (fun _ => (ok ((Vector.replicate _ 1), ()))))
  (by intros; first | rfl | simp | omega | decide) (exIter 0)

end Faster
