import Verif.Witness.Common

/-!
# Concrete states meeting the hypotheses: C46 to C67

Every line applies one of the claimed theorems to concrete arguments, with all
its hypotheses proved: none of them is vacuous.
-/

namespace Faster
open Res

set_option maxRecDepth 4000
set_option linter.all false

example := @C46_pack256 downcastRows[7] (by simp) _ rfl (by decide) (Vector.replicate _ 0)
  (Vector.replicate _ 0)

example := @C46_packs256_iff downcastRows[7] (by simp) _ rfl (by decide) (by decide)
  (Vector.replicate _ 0) (Vector.replicate _ 0)

example := @C46_packus256_iff downcastRows[9] (by simp) _ rfl (by decide) (by decide)
  (Vector.replicate _ 0) (Vector.replicate _ 0)

example := @C47_fallback_partial upcastRows[7] (by simp) downcastRows[7] (by simp) (by decide)
  (by decide) (by decide) (fun _ => 1) (Vector.replicate _ 0) (Vector.replicate _ 0)
  (Vector.replicate _ 0) (by decide)

example := @C47_pack256 upcastRows[7] (by simp) downcastRows[7] (by simp) (by decide) _ rfl
  (by decide) (fun _ => 1) (Vector.replicate _ 0) (Vector.replicate _ 0) (Vector.replicate _ 0)
  (by decide)

example := @C47_pack256_iff upcastRows[7] (by simp) downcastRows[7] (by simp) (by decide) _ rfl
  (by decide) (fun _ => 1) (Vector.replicate _ 0) (Vector.replicate _ 0) (Vector.replicate _ 0)
  (by decide)

example := @C47_u32_iff downcastRows[2] (by simp) (by decide) (by decide) (Vector.replicate _ 0)
  (Vector.replicate _ 0) (Vector.replicate _ 0) (by decide)

example := @C48_polyfill (BitVec 8) destrideRows[0] (by simp) (Vector.replicate _ 0)
  (Vector.replicate _ 0)

example := @C49 (BitVec 8) destrideRows[0] (by simp) (Vector.replicate _ 0) (Vector.replicate _ 0)
  (Vector.replicate _ 0) (Vector.replicate _ 0)

example := @C50_optimized eqRows[0] (by simp) (by decide) (Vector.replicate _ 1)
  (Vector.replicate _ 1)

example := @C50_fallback release64 eqRows[0] (by simp) (by decide) (Vector.replicate _ 1)
  (Vector.replicate _ 1)

example := @C50_ne 8 4 (Vector.replicate _ 0) 1 (by decide) 1 (by decide)

example := @C51_optimized cmpRows[0] (by simp) (by decide) (Vector.replicate _ 1)
  (Vector.replicate _ 1)

example := @C51_fallback release64 cmpRows[0] (by simp) (by decide) (Vector.replicate _ 1)
  (Vector.replicate _ 1)

example := @C51_multiset 8 true 1 1 1 1 (by constructor <;> decide) (by constructor <;> decide)

example := @C52_roundtrip 8 16 4 2 (Vector.replicate _ 0) (by decide)

example := @C52_set_bits 8 16 4 2 (Vector.replicate _ 0) (by decide)

example := @C52_bytes _ 4 2 (Vector.replicate _ 0) rfl (by decide) 1 (by decide)

example := @C52_injective 8 16 4 2 (Vector.replicate _ 0) (Vector.replicate _ 0) (by decide)
  (by decide)

example := @C53_coalesce_eq (BitVec 8) 4 (fun _ => (fun _ => true)) release64
  (Vector.replicate _ 0) (by decide)

example := @C53_coalesce_splat (BitVec 8) 4 (fun _ => (fun _ => true)) release64 1 (by decide)
  (by decide)

example := @C53_coalesce (BitVec 8) inferInstance 4 release64 (Vector.replicate _ 0) (by decide)

example := @C53_coalesce_float_partial 8 4 release64 1 (by decide) (by decide)

example := @C53_coalesce_float 8 4 release64 (Vector.replicate _ 0) (by decide)

example := @C55_end_partial (SIMDIter (Slice (BitVec 8) 4) (BitVec 8) 4) Unit Unit (BitVec 8)
  (BitVec 8) (BitVec 8) 4 4 4 inferInstance inferInstance inferInstance inferInstance
  inferInstance release64 (fun _ => (fun _ => (ok ((Vector.replicate _ 1), ()))))
  (fun _ => (fun _ => (ok ((Vector.replicate _ 1), ())))) (exIter 0) () () (by decide) (by decide)
  (by decide) (by intro _ _ _ h; cases h <;> decide)

example := @C55_end_exact (SIMDIter (Slice (BitVec 8) 4) (BitVec 8) 4) Unit Unit (BitVec 8)
  (BitVec 8) (BitVec 8) 4 4 4 inferInstance inferInstance inferInstance inferInstance
  inferInstance release64 (fun _ => (fun _ => (ok ((Vector.replicate _ 1), ()))))
  (fun _ => (fun _ => (ok ((Vector.replicate _ 1), ())))) (exIter 0) () () (by decide) (by decide)
  (by intro _ _ _ h; cases h <;> decide)

example := @C55_do_each (SIMDIter (Slice (BitVec 8) 4) (BitVec 8) 4) Unit Unit (BitVec 8)
  (BitVec 8) (BitVec 8) 4 4 4 inferInstance inferInstance inferInstance inferInstance
  inferInstance release64 (fun _ => (fun _ => (ok ((Vector.replicate _ 0), ()))))
  (fun _ => (fun _ => (ok ((Vector.replicate _ 0), ())))) (exIter 0) () () (BitVec 8) (by decide)
  (by decide) (by decide) 100 1 (fun _ => (fun _ => (ok ((), 1))))

example := @C55_reduce (SIMDIter (Slice (BitVec 8) 4) (BitVec 8) 4) Unit Unit (BitVec 8)
  (BitVec 8) (BitVec 8) 4 4 4 inferInstance inferInstance inferInstance inferInstance
  inferInstance release64 (fun _ => (fun _ => (ok ((Vector.replicate _ 0), ()))))
  (fun _ => (fun _ => (ok ((Vector.replicate _ 0), ())))) (exIter 0) () () Nat (BitVec 8)
  (by decide) (by decide) (by decide) 100 1 1 (fun _ => (fun _ => (fun _ => (ok (1, 1)))))

example := @C55_fill_all (SIMDIter (Slice (BitVec 8) 4) (BitVec 8) 4) Unit Unit (BitVec 8)
  (BitVec 8) (BitVec 8) 4 4 4 inferInstance inferInstance inferInstance inferInstance
  inferInstance release64 (fun _ => (fun _ => (ok ((Vector.replicate _ 0), ()))))
  (fun _ => (fun _ => (ok ((Vector.replicate _ 0), ())))) (exIter 0) () () (by decide) (by decide)
  (by decide) 100 [1, 2, 3, 4, 5]

example := @C55_collect_all (SIMDIter (Slice (BitVec 8) 4) (BitVec 8) 4) Unit Unit (BitVec 8)
  (BitVec 8) (BitVec 8) 4 4 4 inferInstance inferInstance inferInstance inferInstance
  inferInstance release64 (fun _ => (fun _ => (ok ((Vector.replicate _ 0), ()))))
  (fun _ => (fun _ => (ok ((Vector.replicate _ 0), ())))) (exIter 0) () () (by decide) (by decide)
  (by decide) 100

example := @C55_fill_partial (SIMDIter (Slice (BitVec 8) 4) (BitVec 8) 4) Unit Unit (BitVec 8)
  (BitVec 8) (BitVec 8) 4 4 4 inferInstance inferInstance inferInstance inferInstance
  inferInstance release64 (fun _ => (fun _ => (ok ((Vector.replicate _ 0), ()))))
  (fun _ => (fun _ => (ok ((Vector.replicate _ 0), ())))) (exIter 0) () () (by decide) (by decide)
  (by decide) (by decide) (by decide) 100 [1, 2, 3, 4, 5]

example := @C55_collect_partial (SIMDIter (Slice (BitVec 8) 4) (BitVec 8) 4) Unit Unit (BitVec 8)
  (BitVec 8) (BitVec 8) 4 4 4 inferInstance inferInstance inferInstance inferInstance
  inferInstance release64 (fun _ => (fun _ => (ok ((Vector.replicate _ 0), ()))))
  (fun _ => (fun _ => (ok ((Vector.replicate _ 0), ())))) (exIter 0) () () (by decide) (by decide)
  (by decide) (by decide) (by decide) 100

example := @C55_zip_do_each
  (Zip (SIMDIter (Slice (BitVec 8) 4) (BitVec 8) 4) (SIMDIter (Slice (BitVec 8) 4) (BitVec 8) 4 × Unit))
  Unit Unit (Vector (BitVec 8) 4 × Vector (BitVec 8) 4 × Unit) (BitVec 8) (BitVec 8) 4 4
  inferInstance inferInstance inferInstance release64
  (fun _ => (fun _ => (ok ((Vector.replicate _ 0), ()))))
  (fun _ => (fun _ => (ok ((Vector.replicate _ 0), ())))) ⟨exFirst 0, exRest⟩ () () (BitVec 8)
  (by decide) (by decide) (by decide) 100 1 (fun _ => (fun _ => (ok ((), 1))))

example := @C55_zip_reduce
  (Zip (SIMDIter (Slice (BitVec 8) 4) (BitVec 8) 4) (SIMDIter (Slice (BitVec 8) 4) (BitVec 8) 4 × Unit))
  Unit Unit (Vector (BitVec 8) 4 × Vector (BitVec 8) 4 × Unit) (BitVec 8) (BitVec 8) 4 4
  inferInstance inferInstance inferInstance release64
  (fun _ => (fun _ => (ok ((Vector.replicate _ 0), ()))))
  (fun _ => (fun _ => (ok ((Vector.replicate _ 0), ())))) ⟨exFirst 0, exRest⟩ () () Nat (BitVec 8)
  (by decide) (by decide) (by decide) 100 1 1 (fun _ => (fun _ => (fun _ => (ok (1, 1)))))

example := @C55_zip_fill_partial
  (Zip (SIMDIter (Slice (BitVec 8) 4) (BitVec 8) 4) (SIMDIter (Slice (BitVec 8) 4) (BitVec 8) 4 × Unit))
  Unit Unit (Vector (BitVec 8) 4 × Vector (BitVec 8) 4 × Unit) (BitVec 8) (BitVec 8) 4 4
  inferInstance inferInstance inferInstance release64
  (fun _ => (fun _ => (ok ((Vector.replicate _ 0), ()))))
  (fun _ => (fun _ => (ok ((Vector.replicate _ 0), ())))) ⟨exFirst 0, exRest⟩ () () (by decide)
  (by decide) (by decide) (by intros; first | rfl | simp | omega | decide) (by decide) 100
  [1, 2, 3, 4, 5]

example := @C55_zip_collect_partial
  (Zip (SIMDIter (Slice (BitVec 8) 4) (BitVec 8) 4) (SIMDIter (Slice (BitVec 8) 4) (BitVec 8) 4 × Unit))
  Unit Unit (Vector (BitVec 8) 4 × Vector (BitVec 8) 4 × Unit) (BitVec 8) (BitVec 8) 4 4
  inferInstance inferInstance inferInstance release64
  (fun _ => (fun _ => (ok ((Vector.replicate _ 0), ()))))
  (fun _ => (fun _ => (ok ((Vector.replicate _ 0), ())))) ⟨exFirst 0, exRest⟩ () () (by decide)
  (by decide) (by decide) (by intros; first | rfl | simp | omega | decide) (by decide) 100

example := @C56_zip_ignores_positions (BitVec 8) (BitVec 8) inferInstance 4 release64
  [1, 2, 3, 4, 5] [1, 2, 3, 4, 5] (Vector.replicate _ 0) (Vector.replicate _ 0) 0 1 (by decide)
  (by decide) (by decide) (by decide)

example := @C56_iff (BitVec 8) (SIMDIter (Slice (BitVec 8) 4) (BitVec 8) 4 × Unit)
  (Vector (BitVec 8) 4 × Unit) 4 inferInstance inferInstance inferInstance inferInstance release64
  [1, 2, 3, 4, 5] (Vector.replicate _ 0) 0 exRest (by decide) (by decide) (by decide) (by decide)

example := @C56_partial (BitVec 8) (SIMDIter (Slice (BitVec 8) 4) (BitVec 8) 4 × Unit)
  (Vector (BitVec 8) 4 × Unit) 4 inferInstance inferInstance inferInstance inferInstance release64
  [1, 2, 3, 4, 5] (Vector.replicate _ 0) 0 exRest (by decide) (by decide) (by decide) (by decide)

example := @C57_false _ 16 4 release64 (by decide) rfl (by decide) (by decide) (by decide)
  (by decide) (by decide) (Vector.replicate _ 0) (Vector.replicate _ 0) 1 (by decide) (by decide)

example := @C57_partial _ 4 2 release64 rfl (by decide) (by decide) (by decide) (by decide)
  (by decide) (Vector.replicate _ 0) (Vector.replicate _ 0) 1 (by decide) (by decide)

example := @C57_mask_outcome _ 4 2 release64 rfl (by decide) (by decide) (by decide) (by decide)
  (by decide) 1 (by decide)

example := @C57_iff _ 4 2 release64 rfl (by decide) (by decide) (by decide) (by decide)
  (by decide) 1 (by decide) (Vector.replicate _ 0) (Vector.replicate _ 0)

example := @C58_involution (BitVec 8) 4 (by decide) (Vector.replicate _ 0)

example := @C59_lanes (BitVec 8) 8 (fun _ => (fun _ => (ok 0))) 1 (Vector.replicate _ 0)
  (Vector.replicate _ 0) (Vector.replicate _ 0) (by decide)

example := @C59_panics (BitVec 8) 4 (fun _ => (fun _ => Res.panic)) 1 (Vector.replicate _ 5)
  (Vector.replicate _ 5) 0 (by decide) (by decide) rfl

example := @C59_traits (BitVec 8) 4 (fun _ => (fun _ => (fun x => ok x))) softOps[0] (by simp)
  .mul 1 (Vector.replicate _ 1) (Vector.replicate _ 1)

example := @C59_traits_assign (BitVec 8) 4 (fun _ => (fun _ => (fun x => ok x))) softAssignOps[0]
  softOps[0] (by simp) (by simp) rfl .mul 1 (Vector.replicate _ 1) (Vector.replicate _ 1)

example := @C60_symm (BitVec 8) 4 (fun _ => (fun _ => true)) (by decide) (Vector.replicate _ 0)
  (Vector.replicate _ 0)

example := @C61_rows softCasts[0] (by simp)

example := @C62_x86 (fun _ => false) (by decide) rfl elements[0] (by simp)

example := @C62_unknown (fun _ => false) rfl elements[0] (by simp)

example := @C63_exact (BitVec 8) (fun _ => (fun _ => 1)) 5 (fun _ => 1) (fun _ => 0) rfl .zero
  trivial

example := @C64_partial gateRows[0] (by simp)

example := @C65_optimized eqRows[6] (by simp) rfl (Vector.replicate _ 1) (Vector.replicate _ 1)

example := @C65_fallback release64 eqRows[6] (by simp) rfl (Vector.replicate _ 1)
  (Vector.replicate _ 1)

example := @C66_fallback release64 cmpRows[13] (by simp) rfl (Vector.replicate _ 1)
  (Vector.replicate _ 1)

example := @C66_optimized_partial cmpRows[13] (by simp) rfl (Vector.replicate _ 1)
  (Vector.replicate _ 1)

example := @C67_optimized roundRows[1] (by simp) (by decide) (Vector.replicate _ 0)

example := @C67_fallback roundRows[1] (by simp) (by decide) (Vector.replicate _ 0)

end Faster
