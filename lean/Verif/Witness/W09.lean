import Verif.Witness.Common

/-!
# Concrete states meeting the hypotheses: C114 to C127

Every line applies one of the claimed theorems to concrete arguments, with all
its hypotheses proved: none of them is vacuous.
-/

namespace Faster
open Res

set_option maxRecDepth 4000
set_option linter.all false

example := @C114_rows (BitVec 8) patternRows[0] (by simp) 1 1

example := @C114_model (BitVec 8) patternRows[0] (by simp) 1 1

example := @C115_merge_fallback (BitVec 8) 4 release64 (by decide) 1 1

example := @C115_merge_blend _ 4 2 release64 rfl (by decide) rfl (by decide) (by decide) 1 1

example := @C115_downcast_partial
  (.mk (.ofByteArray (.mk default) (by decide)) (.ofByteArray (.mk default) (by decide)) 1 .i .i 1 1 (some .sse) (some .mm256_abs_epi16) [(.mk true 1 1 1)])
  (by decide) 1 1

example := @C115_downcast256 downcastRows[7] (by simp) _ rfl (by decide) (by decide) 1 1

example := @C115_eq_mask release64 eqRows[0] (by decide) 1 1 1 _ (.inr ⟨by simp, rfl⟩)

example := @C115_min_max release64 cmpRows[0] (by decide) 1 1 1 1 _ (.inr ⟨by simp, rfl⟩)

example := @C115_abs absRows[4] (by decide) 1

example := @C115_sqrt_int true sqrtRows[0] (by simp) 1 (by decide) (by decide)

example := @C116_stride (BitVec 8) 4 (Slice (BitVec 8) 4) strideLits[2] (by simp)
  ⟨[1, 2, 3, 4, 5]⟩ (List.replicate 4 (Vector.replicate _ 0)) rfl

example := @C116_transmute _ (.head _) _ (.head _) _ (.head _)

example := @C117_resume_driver (SIMDIter (Slice (BitVec 8) 4) (BitVec 8) 4) (BitVec 8) (BitVec 8)
  Unit 4 4 inferInstance inferInstance inferInstance inferInstance release64 exIter
  [1, 2, 3, 4, 5] (Vector.replicate _ 0) (fun p => p + 4 ≤ 5)
  (simdIter_driver (represents_slice _ _) _ (by decide) (by decide)) 100 ()
  (fun _ => (fun _ => (ok ((Vector.replicate _ 0), ())))) 1 [1, 2, 3, 4, 5, 6, 7, 8] (by decide)
  (by decide) (by decide) (by decide) (by decide) (by decide) (by decide) (by decide)

example := @C117_do_each_driver (SIMDIter (Slice (BitVec 8) 4) (BitVec 8) 4) (BitVec 8) Unit 4
  inferInstance inferInstance inferInstance inferInstance release64 exIter [1, 2, 3, 4, 5]
  (Vector.replicate _ 0) (fun p => p + 4 ≤ 5)
  (simdIter_driver (represents_slice _ _) _ (by decide) (by decide)) 100 () _
  (fun _ => (fun _ => Res.panic)) _ 0 _ (by decide) (by decide) rfl rfl rfl

example := @C117_resume (BitVec 8) (BitVec 8) Unit 4 4 inferInstance inferInstance release64 100
  [1, 2, 3] (Vector.replicate _ 0) () (fun _ => (fun _ => (ok ((Vector.replicate _ 0), ())))) 1
  [1, 2, 3, 4] (by decide) (by decide) (by decide) (by decide) (by decide) (by decide) (by decide)
  (by decide) (by decide)

example := @C117_do_each_panic (BitVec 8) Unit 4 release64 100 [1, 2, 3, 4, 5]
  (Vector.replicate _ 0) () _ (fun _ => (fun _ => Res.panic)) _ 0 _ (by decide) (by decide)
  (by decide) rfl rfl rfl

example := @C117_fill_panic_stride (BitVec 8) (BitVec 32) Unit 4 4 inferInstance inferInstance
  release64 100 [1, 2, 3, 4, 5] 2 1 (by decide) (Vector.replicate _ 0) () _
  (fun _ => (fun _ => Res.panic)) _ 0 _ [1, 2, 3, 4, 5] (by decide) (by decide) (by decide)
  (by decide) (by decide) (by decide) (by decide) rfl rfl rfl

example := @C117_reduce_resume_driver (SIMDIter (Slice (BitVec 8) 4) (BitVec 8) 4) (BitVec 8) Unit
  Nat 4 inferInstance inferInstance release64 exIter [1, 2, 3, 4, 5] (Vector.replicate _ 0)
  (fun p => p + 4 ≤ 5) (simdIter_driver (represents_slice _ _) _ (by decide) (by decide)) 100 1 ()
  (fun _ => (fun _ => (fun _ => (ok (4, ()))))) 2 (by decide) (by decide)

example := @C117_stride_panic (BitVec 8) Unit (Slice (BitVec 8) 4) 4 inferInstance release64 100
  [1, 2, 3, 4, 5] 2 1 (by decide) (Vector.replicate _ 1) ⟨[1, 2, 3, 4, 5]⟩ ⟨[1, 2, 3, 4, 5]⟩ () ()
  (fun _ => (fun _ => (fun _ => (ok (⟨[1, 2, 3, 4, 5]⟩, ())))))
  (fun _ => (fun _ => (ok ((), ())))) [()] 0 _ (by decide) (by decide) (by decide) rfl

example := @C117_resume_stride (BitVec 8) Unit 4 (BitVec 8) 4 inferInstance inferInstance
  release64 100 [1, 2, 3, 4, 5] 2 1 (by decide) (Vector.replicate _ 0) ()
  (fun _ => (fun _ => (ok ((Vector.replicate _ 0), ())))) 1 [1, 2, 3, 4, 5] (by decide)
  (by decide) (by decide) (by decide) (by decide) (by decide) (by decide) (by decide) (by decide)

example := @C117_do_each_panic_zip (SIMDIter (Slice (BitVec 8) 4) (BitVec 8) 4)
  (SIMDIter (Slice (BitVec 8) 4) (BitVec 8) 4 × Unit) (BitVec 8) (Vector (BitVec 8) 4 × Unit)
  (BitVec 8 × Unit) Unit 4 inferInstance inferInstance inferInstance inferInstance inferInstance
  inferInstance inferInstance release64 _ exRest exRows exDv _
  (simdIter_driver (represents_slice _ _) _ (by decide) (by decide)) (by decide)
  ⟨repIter_simdIter _ _ _ _ (by decide) (by decide), trivial⟩ (by decide) 100 () _
  (fun _ => (fun _ => Res.panic)) _ 0 _ (by decide) rfl rfl rfl

example := @C117_resume_zip (SIMDIter (Slice (BitVec 8) 4) (BitVec 8) 4)
  (SIMDIter (Slice (BitVec 8) 4) (BitVec 8) 4 × Unit) (BitVec 8) (Vector (BitVec 8) 4 × Unit)
  (BitVec 8 × Unit) (BitVec 8) Unit 4 4 inferInstance inferInstance inferInstance inferInstance
  inferInstance debug64 exFirst exRest exRows exDv (fun p => p + 4 ≤ 5) inferInstance
  (simdIter_driver (represents_slice _ _) _ (by decide) (by decide)) (by decide)
  ⟨repIter_simdIter _ _ _ _ (by decide) (by decide), trivial⟩ (by decide) 100 ()
  (fun _ => (fun _ => (ok ((Vector.replicate _ 0), ())))) 0 [1, 2, 3, 4, 5, 6, 7, 8] (by decide)
  (by decide) (by decide) (by decide) (by decide) (by decide) (by decide)

example := @C117_reduce_resume_zip (SIMDIter (Slice (BitVec 8) 4) (BitVec 8) 4)
  (SIMDIter (Slice (BitVec 8) 4) (BitVec 8) 4 × Unit) (BitVec 8) (Vector (BitVec 8) 4 × Unit)
  (BitVec 8 × Unit) Unit (Slice (BitVec 8) 4) 4 inferInstance inferInstance inferInstance
  inferInstance inferInstance release64 exFirst exRest exRows exDv (fun p => p + 4 ≤ 5)
  (simdIter_driver (represents_slice _ _) _ (by decide) (by decide)) (by decide)
  ⟨repIter_simdIter _ _ _ _ (by decide) (by decide), trivial⟩ (by decide) 100 ⟨[1, 2, 3, 4, 5]⟩ ()
  (fun _ => (fun _ => (fun _ => (ok (⟨[1, 2, 3, 4, 5]⟩, ()))))) 1 (by decide)

example := @C118_calls (BitVec 8) 4 (by decide) (Vector.replicate _ 1) [1, 2, 3, 4]
  [1, 2, 3, 4, 5] (by decide)

example := @C118_do_each (BitVec 8) Unit 4 release64 100 [1, 2, 3, 4] [1, 2, 3, 4, 5]
  (Vector.replicate _ 1) () (fun _ => (fun _ => (ok ((), ())))) (by decide) (by decide)
  (by decide) (by decide)

example := @C118_reduce (BitVec 8) Unit 4 Nat release64 100 [1, 2, 3, 4] [1, 2, 3, 4, 5]
  (Vector.replicate _ 0) 1 () (fun _ => (fun _ => (fun _ => (ok (1, ()))))) (by decide)
  (by decide) (by decide) (by decide)

example := @C118_collect (BitVec 8) (BitVec 8) Unit 4 4 inferInstance inferInstance release64 100
  [1, 2, 3, 4] [1, 2, 3, 4, 5] (Vector.replicate _ 1) ()
  (fun _ => (fun _ => (ok ((Vector.replicate _ 1), ())))) (by decide) (by decide) (by decide)
  (by decide) rfl (by decide) (by decide) (by decide) (by decide)

example := @C118_for_each (BitVec 8) Unit 4 inferInstance release64 100 [1, 2, 3, 4]
  [1, 2, 3, 4, 5] (Vector.replicate _ 1) () _ _
  (fun _ => (fun _ => (ok ((Vector.replicate _ 1), ())))) (by decide) (by decide) (by decide)
  (by decide) _ _ rfl rfl

example := @C118_for_each_any (BitVec 8) Unit 4 inferInstance release64 100 [1, 2, 3, 4]
  [1, 2, 3, 4, 5] (Vector.replicate _ 1) ()
  (fun _ => (fun _ => (ok ((Vector.replicate _ 1), ())))) (by decide) (by decide) (by decide)
  (by decide)

example := @C119_stride (BitVec 8) 4 (Slice (BitVec 8) 4) inferInstance inferInstance
  inferInstance release64 ⟨⟨[1, 2, 3, 4, 5]⟩, 0, 0, 2, Vector.replicate 4 0⟩ (by decide)
  (by decide) (by decide)

example := @C119_zip_map_len (BitVec 8) (BitVec 8) 4 4
  (SIMDIter (Slice (BitVec 8) 4) (BitVec 8) 4) (SIMDIter (Slice (BitVec 8) 4) (BitVec 8) 4 × Unit)
  Unit (Vector (BitVec 8) 4 × Unit) inferInstance inferInstance inferInstance inferInstance
  inferInstance release64 ⟨⟨exFirst 0, exRest⟩, (), fun _ v => ok (v.1, ())⟩ _ rfl (by decide)
  (by decide)

example := @C119_stride_zip_pos (BitVec 8) 4 inferInstance release64 [1, 2, 3, 4, 5]
  (Vector.replicate _ 0) 0 (some (Vector.replicate _ 1)) 0 (by decide) (by decide)

example := @C119_stride_zip_exact (BitVec 8) 4 inferInstance release64 [1, 2, 3, 4, 5]
  (Vector.replicate _ 0) 0 (some (Vector.replicate _ 1)) 0 (by decide) (by decide)

example := @C119_stride_zip_partial (BitVec 8) 4 inferInstance release64 [1, 2, 3, 4, 5]
  (Vector.replicate _ 0) 0 (some (Vector.replicate _ 1)) 0 (by decide) (by decide) rfl

example := @C120_casts softCasts[0] (by simp)

example := @C120_round_trip 32 .i (by decide) (by decide) 1 (by decide)

example := @C121_float_release 64 4 release64 (by decide) (by decide) (Vector.replicate _ 0)

example := @C121_int_release 4 release64 rfl .i (Vector.replicate _ 1)

example := @C121_int_exact 4 release64 rfl .i (Vector.replicate _ 1)

example := @C121_int_debug 4 debug64 rfl .i (Vector.replicate _ 1)

example := @C122_adapter_trace_partial (BitVec 8) 4 release64 (by decide) (by decide) [.next]
  ⟨[1, 2, 3, 4, 5], Vector.replicate _ 0, Vector.replicate _ 0, 0⟩ _ _ (by decide) rfl

example := @C122_exact (BitVec 8) 4 release64 (by decide) (by decide) [1, 2, 3, 4, 5]
  (Vector.replicate _ 1) (by decide)

example := @C122_debug_safe (BitVec 8) 4 debug64 (by decide) (by decide) rfl [.next]
  ⟨[1, 2, 3, 4, 5], Vector.replicate _ 0, Vector.replicate _ 0, 0⟩ (by decide)

example := @C123_zip_many (BitVec 8) (SIMDIter (Slice (BitVec 8) 4) (BitVec 8) 4 × Unit)
  (Vector (BitVec 8) 4 × Unit) 4 inferInstance inferInstance release64 [1, 2, 3, 4, 5]
  (Vector.replicate _ 0) exRest (by decide) (by decide) (by decide)

example := @C123_do_each_exact (BitVec 8) (BitVec 8) inferInstance 4 Unit release64
  [1, 2, 3, 4, 5] [1, 2, 3, 4, 5] (Vector.replicate _ 1) (Vector.replicate _ 1) (by decide)
  (by decide) (by decide) 100 () (fun _ => (fun _ => (ok ((), ())))) (by decide)

example := @C123_collect_exact (BitVec 8) (BitVec 8) inferInstance 4 (BitVec 8) inferInstance
  release64 [1, 2, 3, 4, 5] [1, 2, 3, 4, 5] (Vector.replicate _ 0) (Vector.replicate _ 0)
  (by decide) (by decide) (by decide) 100 (fun _ => (fun _ => 1)) (by decide) (by decide)
  (by decide) (by decide)

example := @C123_collect_partial (BitVec 8) (BitVec 8) inferInstance 4 (BitVec 8) inferInstance
  release64 [1, 2, 3, 4, 5] [1, 2, 3, 4, 5] (Vector.replicate _ 1) (Vector.replicate _ 1)
  (by decide) (by decide) (by decide) 100 (fun _ => (fun _ => 1)) (by decide) rfl (by decide)
  (by decide) (by decide)

example := @C123_debug (BitVec 8) (BitVec 8) inferInstance 4 (BitVec 8) inferInstance debug64
  [1, 2, 3, 4, 5, 6, 7, 8] [1, 2, 3, 4, 5] (Vector.replicate _ 1) (Vector.replicate _ 1)
  (by decide) (by decide) (by decide) 100 (fun _ => (fun _ => 1)) (by decide) rfl (by decide)
  (by decide) rfl (by decide)

example := @C123_release_longer (BitVec 8) (BitVec 8) inferInstance 8 (BitVec 8) inferInstance
  release64 [1, 2, 3] [1, 2, 3, 4] (Vector.replicate _ 0) (Vector.replicate _ 0) (by decide)
  (by decide) (by decide) 100 (fun _ => (fun _ => 1)) (by decide) (by decide) (by decide)
  (by decide) (by decide) (by decide) (by decide) (by decide)

example := @C123_do_each_many (BitVec 8) (SIMDIter (Slice (BitVec 8) 4) (BitVec 8) 4 × Unit)
  (Vector (BitVec 8) 4 × Unit) 4 inferInstance inferInstance inferInstance Unit release64
  [1, 2, 3, 4, 5] (Vector.replicate _ 1) exRest (by decide) (by decide) (by decide) 100 ()
  (fun _ => (fun _ => (ok ((), ())))) (by decide)

example := @C123_collect_many (BitVec 8) (SIMDIter (Slice (BitVec 8) 4) (BitVec 8) 4 × Unit)
  (Vector (BitVec 8) 4 × Unit) 4 inferInstance inferInstance inferInstance (BitVec 8)
  inferInstance release64 [1, 2, 3, 4, 5] (Vector.replicate _ 1) exRest (by decide) (by decide)
  (by decide) 100 (fun _ => (Vector.replicate _ 1)) (by decide) rfl (by decide) (by decide)

example := @C123_outcome_many (BitVec 8) (SIMDIter (Slice (BitVec 8) 4) (BitVec 8) 4 × Unit)
  (Vector (BitVec 8) 4 × Unit) 4 inferInstance inferInstance inferInstance Unit release64
  [1, 2, 3, 4, 5] (Vector.replicate _ 0) exRest (by decide) (by decide) (by decide) 100 ()
  (fun _ => (fun _ => (ok ((), ())))) (by decide) (by simp)

example := @C124_one (fun _ => true) _ (.head _)

example := @C125_x86 (fun _ => false) rfl .abs (by decide) .i 2 (some (.i, 1))

example := @C125_partial (fun _ => false) rfl .abs (by decide) .i 2 (some (.i, 1))

example := @C126_round_tests true roundRows[0] (by simp)

example := @C126_round_points true roundRows[0] (by simp) 1 (by decide) (by decide)

example := @C127_hop 32 8 (fun _ => (fun _ => 0)) rfl (by decide)
  (fun _ => (fun _ => (ok (Vector.replicate _ 0))))
  (by intros; first | rfl | simp | omega | decide) 1 1 1 1 1 1 1 1 1 1

example := @C127_hadd release64 haddRows[0] (by simp) (by decide) 1 1 1 1 1 1

example := @C127_hsub release64 hsubRows[0] (by simp) (by decide) 1 1 1 1 1 1

end Faster
