import Verif.Witness.Common
import Verif.Props.StridedZipAny
import Verif.Props.ZipRuns

/-!
# Concrete states meeting the hypotheses: sequences of calls on zips

As in the other modules here, for theorems about the order of rows and sequences of calls
(C79, C89, C140).
-/

namespace Faster
open Res

example := @C79_zip_calls
  (Zip (SIMDIter (Slice (BitVec 8) 4) (BitVec 8) 4) (SIMDIter (Slice (BitVec 8) 4) (BitVec 8) 4 × Unit))
  (Vector (BitVec 8) 4 × Vector (BitVec 8) 4 × Unit) inferInstance debug64 _ rfl
  (C79_zip (C79_iter rfl (C79_slice rfl)) (C79_rest_cons rfl (C79_iter rfl (C79_slice rfl)).toSafeIterable (simdIter_safeArray (C79_slice rfl)) C79_rest_nil))
  [ZipOp.next] ⟨exFirst 0, exRest⟩ (by decide)

example := @C89_in_order_debug (SIMDIter (Slice (BitVec 8) 4) (BitVec 8) 4 × Unit) (BitVec 8)
  (Vector (BitVec 8) 4 × Unit) (BitVec 8 × Unit) 4 inferInstance inferInstance inferInstance
  debug64 exRows exDv exRest ⟨repIter_simdIter _ _ _ _ (by decide) (by decide), trivial⟩
  (by decide) (by decide) rfl [ZipOp.finalize, ZipOp.end_] 0 _ _ (by decide) rfl

example := @C89_runs (SIMDIter (Slice (BitVec 8) 4) (BitVec 8) 4 × Unit) (BitVec 8)
  (Vector (BitVec 8) 4 × Unit) (BitVec 8 × Unit) 4 inferInstance inferInstance inferInstance
  release64 exRows exDv exRest ⟨repIter_simdIter _ _ _ _ (by decide) (by decide), trivial⟩
  (by decide) (by decide) [ZipOp.next, ZipOp.finalize, ZipOp.end_] 0 _ _ (by decide) rfl

example := @C140_in_order_debug (SIMDIter (Slice (BitVec 8) 4) (BitVec 8) 4 × Unit) (BitVec 8)
  (Vector (BitVec 8) 4 × Unit) (BitVec 8 × Unit) 4 inferInstance inferInstance inferInstance
  debug64 exRows exDv exRest rfl [1, 2, 3, 4, 5] 1 0 (by decide) rfl
  ⟨repIter_simdIter _ _ _ _ (by decide) (by decide), trivial⟩ (by decide) (by decide)
  [ZipOp.next, ZipOp.advance (2 ^ 64), ZipOp.next] 0 (by decide)

end Faster
