import Verif.Witness.Common

/-!
# Concrete states meeting the hypotheses: C14 to C23

Every line applies one of the claimed theorems to concrete arguments, with all
its hypotheses proved: none of them is vacuous.
-/

namespace Faster
open Res

set_option maxRecDepth 4000
set_option linter.all false

example := @C14_iff (Slice (BitVec 8) 4) (BitVec 8) 4 inferInstance inferInstance release64
  ⟨[1, 2, 3, 4, 5]⟩ [1, 2, 3, 4, 5] (represents_slice _ _) 4 (Vector.replicate _ 0) (by decide)
  (by decide) (by decide)

example := @C14_stride_iff (Slice (BitVec 8) 4) (BitVec 8) 4 inferInstance inferInstance
  inferInstance release64 ⟨[1, 2, 3, 4, 5]⟩ [1, 2, 3, 4, 5] (represents_slice _ _) 2 1 (by decide)
  (Vector.replicate _ 0) (by decide) (by decide) 0 (by decide) (by decide)

example := @C14_zip_iff (SIMDIter (Slice (BitVec 8) 4) (BitVec 8) 4 × Unit) (BitVec 8)
  (Vector (BitVec 8) 4 × Unit) (BitVec 8 × Unit) 4 inferInstance inferInstance inferInstance
  debug64 exRest exRows exDv (Slice (BitVec 8) 4) inferInstance inferInstance ⟨[1, 2, 3, 4, 5]⟩
  (represents_slice _ _) 4 ⟨repIter_simdIter _ _ _ _ (by decide) (by decide), trivial⟩ (by decide)
  (by decide) (by decide)

example := @C14_adapter_iff (BitVec 8) 8 release64 (Vector.replicate _ 0) (Vector.replicate _ 0)
  [1, 2, 3, 4, 5] (by decide) (by decide) (by decide) (by decide)

example := @C15_next_none (Slice (BitVec 8) 4) (BitVec 8) 4 inferInstance inferInstance release64
  (exIter 5) (exIter 5) (by decide)

example := @C15_end_partial (BitVec 8) 8 release64 [1, 2, 3, 4, 5] (Vector.replicate _ 0) 0
  (by decide) (by decide) (by decide) _ _ rfl

example := @C15_end_any (BitVec 8) 8 release64 [1, 2, 3, 4, 5] (Vector.replicate _ 0) 0
  (by decide) (by decide) (by decide) _ _ rfl

example := @C15_map (SIMDIter (Slice (BitVec 8) 4) (BitVec 8) 4) Unit (BitVec 8) (BitVec 8) 4 4
  inferInstance inferInstance inferInstance inferInstance release64 (exIter 5) ()
  (fun _ => (fun _ => (ok ((Vector.replicate _ 0), ())))) (by constructor <;> decide)

example := @C15_reduce (SIMDIter (Slice (BitVec 8) 4) (BitVec 8) 4) (BitVec 8) Nat Unit 4
  inferInstance inferInstance release64 100 (exIter 5) 1 ()
  (fun _ => (fun _ => (fun _ => (ok (1, ()))))) (by constructor <;> decide)

example := @C15_do_each (SIMDIter (Slice (BitVec 8) 4) (BitVec 8) 4) (BitVec 8) Unit 4
  inferInstance inferInstance release64 100 (exIter 5) () (fun _ => (fun _ => (ok ((), ()))))
  (by constructor <;> decide)

example := @C15_map_end (BitVec 8) (BitVec 8) Unit inferInstance inferInstance 4 4 debug64
  [1, 2, 3, 4] (Vector.replicate _ 0) 0 (by decide) (by decide) (by decide) ()
  (fun _ => (fun _ => (ok ((Vector.replicate _ 0), ())))) _ _ rfl

example := @C15_map_next_none (Slice (BitVec 8) 4) (BitVec 8) (BitVec 8) Unit inferInstance 4 4
  inferInstance inferInstance release64 (exIter 4) ()
  (fun _ => (fun _ => (ok ((Vector.replicate _ 0), ())))) _ rfl

example := @C15_zip_end (BitVec 8) (SIMDIter (Slice (BitVec 8) 4) (BitVec 8) 4 × Unit)
  (Vector (BitVec 8) 4 × Unit) inferInstance inferInstance 4 release64 [1, 2, 3, 4, 5]
  (Vector.replicate _ 0) 4 ((exIter 0), ()) (by decide) (by decide) (by decide) _ _ rfl

example := @C15_stride_next_none (Slice (BitVec 8) 4) (BitVec 8) 4 inferInstance inferInstance
  inferInstance release64 ⟨⟨[1, 2, 3, 4, 5]⟩, 0, 0, 2, Vector.replicate 4 0⟩ _ rfl

example := @C15_stride_end (Slice (BitVec 8) 4) (BitVec 8) 4 inferInstance inferInstance
  inferInstance release64 ⟨[1, 2, 3, 4, 5]⟩ [1, 2, 3, 4, 5] (represents_slice _ _) 2 1 (by decide)
  (Vector.replicate _ 0) 0 (by decide) (by decide) (by decide) _ _ rfl

example := @C15_adapter_next_none (BitVec 8) 4 debug64
  ⟨[], Vector.replicate _ 0, Vector.replicate _ 0, 5⟩ _ rfl

example := @C15_adapter_end (BitVec 8) 4 debug64
  ⟨[], Vector.replicate _ 0, Vector.replicate _ 0, 5⟩ _ (by decide) (by decide) _ rfl

example := @C15_zip (SIMDIter (Slice (BitVec 8) 4) (BitVec 8) 4)
  (SIMDIter (Slice (BitVec 8) 4) (BitVec 8) 4 × Unit) (BitVec 8) (Vector (BitVec 8) 4 × Unit) 4
  inferInstance inferInstance inferInstance inferInstance release64 (exIter 5) ((exIter 0), ())
  ⟨rfl, rfl⟩ _ rfl

example := @C15_zip_end_first (SIMDIter (Slice (BitVec 8) 4) (BitVec 8) 4)
  (SIMDIter (Slice (BitVec 8) 4) (BitVec 8) 4 × Unit) (BitVec 8) (Vector (BitVec 8) 4 × Unit) 4
  inferInstance inferInstance inferInstance inferInstance release64 (exIter 4) ((exIter 4), ()) _
  _ rfl

example := @C15_zip_stride_end (Slice (BitVec 8) 4) (BitVec 8)
  (SIMDIter (Slice (BitVec 8) 4) (BitVec 8) 4 × Unit) (Vector (BitVec 8) 4 × Unit) 4 inferInstance
  inferInstance inferInstance inferInstance release64 ⟨[1, 2, 3, 4, 5]⟩ [1, 2, 3, 4, 5]
  (represents_slice _ _) 2 1 (by decide) (Vector.replicate _ 0) 0 ((exIter 0), ()) (by decide)
  (by decide) (by decide) _ _ rfl

example := @C15_zip_reduce
  (Zip (SIMDIter (Slice (BitVec 8) 4) (BitVec 8) 4) (SIMDIter (Slice (BitVec 8) 4) (BitVec 8) 4 × Unit))
  (Vector (BitVec 8) 4 × Vector (BitVec 8) 4 × Unit) inferInstance Nat Unit ⟨true, 16⟩ 100
  ⟨exFirst 5, exRest⟩ 1 () (fun _ => (fun _ => (fun _ => (ok (1, ()))))) ⟨rfl, rfl⟩

example := @C15_zip_do_each
  (Zip (SIMDIter (Slice (BitVec 8) 4) (BitVec 8) 4) (SIMDIter (Slice (BitVec 8) 4) (BitVec 8) 4 × Unit))
  (Vector (BitVec 8) 4 × Vector (BitVec 8) 4 × Unit) inferInstance Unit ⟨true, 16⟩ 100
  ⟨exFirst 5, exRest⟩ () (fun _ => (fun _ => (ok ((), ())))) ⟨rfl, rfl⟩

example := @C15_zip_map
  (Zip (SIMDIter (Slice (BitVec 8) 4) (BitVec 8) 4) (SIMDIter (Slice (BitVec 8) 4) (BitVec 8) 4 × Unit))
  (Vector (BitVec 8) 4 × Vector (BitVec 8) 4 × Unit) inferInstance Unit (BitVec 8) inferInstance 4
  ⟨true, 16⟩ ⟨exFirst 5, exRest⟩ () (fun _ => (fun _ => (ok ((Vector.replicate _ 1), ()))))
  ⟨rfl, rfl⟩

example := @C15_stride_zip_next_none (BitVec 8) inferInstance 4 release64 [1, 2, 3, 4, 5]
  (Vector.replicate _ 0) 100 (some (Vector.replicate _ 0)) 0 (by decide) (by decide) (by decide) _
  rfl

example := @C15_stride_zip_end (BitVec 8) inferInstance 4 release64 [1, 2, 3, 4, 5]
  (Vector.replicate _ 0) 0 none 0 (by decide) (by decide) (by decide) (by decide) (by decide) _ _
  rfl

example := @C15_stride_zip_trace (BitVec 8) inferInstance 4 release64 [1, 2, 3, 4, 5]
  (Vector.replicate _ 0) 100 (by decide) (by decide) [ZipOp.next] (by decide) _ _ rfl _ _ rfl

example := @C16_len (BitVec 8) 4 release64 [1, 2, 3, 4, 5] (Vector.replicate _ 0) 0 (by decide)

example := @C16_len_wrong (BitVec 8) 4 release64 [1, 2, 3, 4, 5] (Vector.replicate _ 0) _
  (by decide) (by decide) _ rfl

example := @C16_len_fresh_partial (BitVec 8) 4 release64 [1, 2, 3, 4, 5] (Vector.replicate _ 0)
  (by decide) (by decide)

example := @C16_driver (SIMDIter (Slice (BitVec 8) 4) (BitVec 8) 4) (BitVec 8) 4 inferInstance
  inferInstance release64 exIter [1, 2, 3, 4, 5] (Vector.replicate _ 0) (fun p => p + 4 ≤ 5)
  inferInstance (simdIter_driver (represents_slice _ _) _ (by decide) (by decide)) (by decide) 0
  (by decide)

example := @C16_slice_iff (BitVec 8) 4 release64 [1, 2, 3, 4, 5] (Vector.replicate _ 0) 0
  (by decide) (by decide) (by decide)

example := @C16_stride_iff (BitVec 8) 4 release64 [1, 2, 3, 4, 5] (Vector.replicate _ 0)
  inferInstance 2 1 (by decide) (by decide) (by decide)

example := @C16_map_iff (SIMDIter (Slice (BitVec 8) 4) (BitVec 8) 4) Unit (BitVec 8) (BitVec 8) 4
  4 inferInstance inferInstance inferInstance inferInstance release64
  (fun _ => (fun _ => (ok ((Vector.replicate _ 1), ())))) (exIter 4) (exIter 4) () []
  (by constructor <;> decide) _ rfl

example := @C16_zip (SIMDIter (Slice (BitVec 8) 4) (BitVec 8) 4)
  (SIMDIter (Slice (BitVec 8) 4) (BitVec 8) 4 × Unit) (BitVec 8) (Vector (BitVec 8) 4 × Unit)
  (BitVec 8 × Unit) 4 inferInstance inferInstance inferInstance inferInstance inferInstance
  release64 exFirst exRest exRows exDv (fun p => p + 4 ≤ 5) inferInstance
  (simdIter_driver (represents_slice _ _) _ (by decide) (by decide)) (by decide)
  ⟨repIter_simdIter _ _ _ _ (by decide) (by decide), trivial⟩ (by decide) 0 (by decide)

example := @C16_stride_zip (BitVec 8) inferInstance 4 release64 [1, 2, 3, 4, 5]
  (Vector.replicate _ 0) 100 (some (Vector.replicate _ 0)) (by decide) (by decide) _ 0 (by decide)
  rfl

example := @C16_stride_zip_iff (BitVec 8) inferInstance 4 release64 [1, 2, 3, 4, 5]
  (Vector.replicate _ 0) 100 (some (Vector.replicate _ 0)) 0 (by decide) (by decide) (by decide)

example := @C16_adapter (BitVec 8) 4 release64 [1, 2, 3, 4, 5] (Vector.replicate _ 0)
  (Vector.replicate _ 0) 0 (by decide) (by decide)

example := @C16_adapter_iff (BitVec 8) 4 release64 [1, 2, 3, 4, 5] (Vector.replicate _ 0)
  (by decide) (by decide)

example := @C16_at (SIMDIter (Slice (BitVec 8) 4) (BitVec 8) 4) (BitVec 8) 4 inferInstance
  inferInstance release64 exIter (fun p => p + 4 ≤ 5) (2 ^ 64 - 4) [1, 2, 3, 4, 5]
  (Vector.replicate _ 0) (simdIter_everywhere (represents_slice _ _) _ (by decide) (by decide))
  (by decide) 0 (by decide) 1 (by decide) (by decide)

example := @C16_slice_at_iff (BitVec 8) 4 release64 [1, 2, 3, 4, 5] (Vector.replicate _ 0) 0
  (by decide) (by decide) (by decide)

example := @C16_stride_at (BitVec 8) 4 inferInstance release64 [1, 2, 3, 4, 5]
  (Vector.replicate _ 0) 2 1 (by decide) 0 (by decide) (by decide) (by decide)

example := @C16_zip_at (SIMDIter (Slice (BitVec 8) 4) (BitVec 8) 4)
  (SIMDIter (Slice (BitVec 8) 4) (BitVec 8) 4 × Unit) (BitVec 8) (Vector (BitVec 8) 4 × Unit)
  (BitVec 8 × Unit) 4 inferInstance inferInstance inferInstance inferInstance inferInstance
  release64 exFirst (fun p => p + 4 ≤ 5) (2 ^ 64 - 4) exRest exRows exDv
  (simdIter_everywhere (represents_slice _ _) _ (by decide) (by decide)) (by decide)
  ⟨repIter_simdIter _ _ _ _ (by decide) (by decide), trivial⟩ (by decide) 0 (by decide) 1
  (by decide) (by decide)

example := @C17_load_store (BitVec 8) 4 (Vector.replicate _ 0) [1, 2, 3, 4, 5] 1 (by decide)

example := @C17_store_load (BitVec 8) 4 [1, 2, 3, 4, 5] 1 (by decide)

example := @C17_unchecked (BitVec 8) 4 release64 (Vector.replicate _ 0) [1, 2, 3, 4, 5] 1
  (by decide)

example := @C18_unpack (BitVec 8) 4 release64 [1, 2, 3, 4, 5] (Vector.replicate _ 0) (by decide) 1
  0

example := @C18_pack_resumes (BitVec 8) 4 release64 [1, 2, 3, 4, 5] (Vector.replicate _ 0) 1 0
  (by decide) (by decide) (by decide)

example := @C18_stride (Slice (BitVec 8) 4) (BitVec 8) 4 inferInstance inferInstance inferInstance
  release64 ⟨[1, 2, 3, 4, 5]⟩ [1, 2, 3, 4, 5] (represents_slice _ _) 2 1 (by decide)
  (Vector.replicate _ 0) (by decide) (by decide) 8 0 (by decide)

example := @C19_unroll (SIMDIter (Slice (BitVec 8) 4) (BitVec 8) 4) (BitVec 8) 4 inferInstance
  inferInstance debug64 (exIter 4) (by decide) 1 (by decide) (by decide) 100 (exIter 4) []
  (Vector.replicate _ (Vector.replicate _ 0)) (by constructor <;> decide) (by decide)

example := @C19_unroll_slice (BitVec 8) inferInstance 4 release64 [1, 2, 3, 4, 5]
  (Vector.replicate _ 0) 0 1 100 (by decide) (by decide) (by decide) (by decide) (by decide)
  (by decide)

example := @C19_unroll_too_many (SIMDIter (Slice (BitVec 8) 4) (BitVec 8) 4) (BitVec 8) 4
  inferInstance inferInstance inferInstance (exIter 0) 16 (by decide)

example := @C19_chunksOf (BitVec 8) 8 (by decide) [1, 2, 3, 4, 5]

example := @C21_zip_two (BitVec 8) (BitVec 8) inferInstance 4 release64 [1, 2, 3, 4, 5]
  [1, 2, 3, 4, 5] (Vector.replicate _ 0) (Vector.replicate _ 0) (BitVec 8) inferInstance 100
  (fun _ => (fun _ => 1)) (by decide) (by decide) (by decide) (by decide) (by decide) (by decide)
  (by decide)

example := @C21_zip_two_any (BitVec 8) (BitVec 8) inferInstance 4 release64 [1, 2, 3, 4, 5]
  [1, 2, 3, 4, 5] (Vector.replicate _ 0) (Vector.replicate _ 0) (BitVec 8) Unit inferInstance 4
  100 () (fun _ => (fun _ => (ok ((Vector.replicate _ 0), ())))) (by decide) (by decide)
  (by decide) (by decide) (by decide) (by decide) (by decide) (by decide) (by decide)

example := @C21_zip_every_arity (BitVec 8) (BitVec 8) inferInstance inferInstance 16 release64 5 5
  (fun _ => [1, 2, 3, 4, 5]) (fun _ => (Vector.replicate _ 0)) (by decide) (by decide) (by decide)
  100 (fun _ => 5) (by decide) (by decide) (by decide) (by decide)

example := @C22_zip_check (BitVec 8) (BitVec 8) 4 4 release64 [1, 2, 3, 4, 5] [1, 2, 3, 4, 5]
  (Vector.replicate _ 0) (Vector.replicate _ 0) (by decide) (by decide) (by decide) (by decide)

example := @C23_tail_out_of_bounds (BitVec 8) (BitVec 8) inferInstance 16 release64 [1, 2, 3, 4]
  [1, 2, 3, 4, 5, 6, 7, 8] (Vector.replicate _ 0) (Vector.replicate _ 0) (by decide) (by decide)
  (by decide) (by decide)

example := @C23_zip_safe_partial (BitVec 8) (BitVec 8) inferInstance 4 release64 [1, 2, 3, 4, 5]
  [1, 2, 3, 4, 5] (Vector.replicate _ 0) (Vector.replicate _ 0) 0 1 (by decide) (by decide)
  (by decide)

example := @C23_next_partial (BitVec 8) inferInstance 2 ⟨false, 16⟩ 8 (fun _ => [1, 2, 3, 4, 5])
  (fun _ => (Vector.replicate _ 1)) (by decide) (by intros; first | rfl | simp | omega | decide) _
  rfl 1 (by decide)

example := @C23_next_exact (BitVec 8) (BitVec 8) inferInstance 4 4 release64 [1, 2, 3, 4, 5]
  [1, 2, 3, 4, 5] (Vector.replicate _ 0) (Vector.replicate _ 0) 0 1 (by decide) (by decide)
  (by decide)

end Faster
