import Verif.Iters
import Verif.Zip
import Verif.Stride
import Verif.Intrin.Merge
/-
`end` and `end_unchecked` on targets with SSE4.1/AVX2.

`Verif/Iters.lean` uses the fallback of `merge_partitioned`. On x86 with SSE4.1
(16-byte vectors) or AVX2 (32-byte vectors) the same code is compiled with the
blend version (src/arch/x86/intrin/merge.rs, src/intrin/merge.rs:107-113). The
definitions below are the ones of `Verif/Iters.lean` and `Verif/Zip.lean` with
that merge.
-/
namespace Faster
open Res SIMDSized SIMDIterable SIMDIterator

section Blanket
variable {T : Type} {n w : Nat} [SIMDSized T] [SIMDIterable T (BitVec n) w]
  [SIMDArray T (BitVec n) w]

/-- The vector built by `end` (src/iters.rs:531-541) and `end_unchecked`
(598-609), with the blend merge. -/
def endVecBlend (c : Cfg) (t : T) (len pos emptyAmt : Nat) : Res (Vector (BitVec n) w) := do
  if w < len then
    let ret ← SIMDArray.loadUnchecked c t (← usub c len w)
    mergePartitionedBlend c (dflt t) ret emptyAmt
  else
    elementLoop c t emptyAmt (len - pos) pos (dflt t)

/-- Blanket `SIMDIterator::end` (src/iters.rs:525-549), with the blend merge. -/
def blanketEndBlend (c : Cfg) (t : T) : Res (Option (Vector (BitVec n) w × Nat) × T) := do
  let pos ← scalarPos c t
  let len ← scalarLen c t
  if pos < len then
    let emptyAmt ← usub c w (← usub c len pos)
    let ret ← endVecBlend c t len pos emptyAmt
    let t ← finalize c t
    ok (some (ret, emptyAmt), t)
  else
    ok (none, t)

/-- Blanket `UnsafeIterator::end_unchecked` (src/iters.rs:596-610), with the
blend merge. -/
def endUncheckedBlend (c : Cfg) (t : T) (offset emptyAmt : Nat) : Res (Vector (BitVec n) w) := do
  let len ← scalarLen c t
  debugAssert c (offset < len)
  if c.debug then
    let e ← usub c w (← usub c len offset)
    assert (emptyAmt = e)
  endVecBlend c t len offset emptyAmt

end Blanket

/-- The iterator `it`, on a target where `merge_partitioned` is the blend
version. -/
structure Blend (T : Type) where
  it : T
deriving Repr, DecidableEq

section Instances
variable {T : Type} {n w : Nat} [SIMDSized T]

instance instSizedBlend : SIMDSized (Blend T) where
  scalarLen c t := scalarLen c t.it

instance instArrayBlend [SIMDArray T (BitVec n) w] : SIMDArray (Blend T) (BitVec n) w where
  load c t := SIMDArray.load c t.it
  loadUnchecked c t := SIMDArray.loadUnchecked c t.it
  loadScalar c t := SIMDArray.loadScalar c t.it
  loadScalarUnchecked c t := SIMDArray.loadScalarUnchecked c t.it

instance instIterableBlend [SIMDIterable T (BitVec n) w] :
    SIMDIterable (Blend T) (BitVec n) w where
  next c t := do
    let (r, it) ← SIMDIterable.next c t.it
    ok (r, ⟨it⟩)
  len c t := SIMDIterable.len c t.it
  scalarPos c t := scalarPos c t.it
  advance c t k := do ok ⟨← advance c t.it k⟩
  dflt t := dflt t.it
  vectorPos c t := SIMDIterable.vectorPos c t.it

/-- `SIMDIterator` by the blanket impl (src/iters.rs:525), with the blend merge. -/
instance instIteratorBlend [SIMDIterable T (BitVec n) w] [SIMDArray T (BitVec n) w] :
    SIMDIterator (Blend T) (BitVec n) w where
  end_ c t := do
    let (r, it) ← blanketEndBlend c t.it
    ok (r, ⟨it⟩)

end Instances

/-! ### Zips -/

/-- The iterators `1, 2, …` of a zipped tuple, on a target where
`merge_partitioned` is the blend version. -/
class BlendRest (R : Type) (γ : outParam Type) extends ZipRest R γ where
  /-- `$(self.iters.$n.end_unchecked(pos, n)),*` (src/zip.rs:279). -/
  endAllBlend : Cfg → R → Nat → Nat → Res γ

instance instBlendRestUnit : BlendRest Unit Unit where
  endAllBlend _ _ _ _ := ok ()

instance instBlendRestCons {T R γ : Type} {n w : Nat} [SIMDSized T] [SIMDIterable T (BitVec n) w]
    [SIMDArray T (BitVec n) w] [BlendRest R γ] : BlendRest (T × R) (Vector (BitVec n) w × γ) where
  endAllBlend c r pos k := do
    let v ← endUncheckedBlend c r.1 pos k
    let vs ← BlendRest.endAllBlend c r.2 pos k
    ok (v, vs)

/-- `SIMDZippedIterator::end` (src/zip.rs:275-281), with the blend merge. -/
def Zip.endBlend {T R γ : Type} {n w : Nat} [SIMDSized T] [SIMDIterable T (BitVec n) w]
    [SIMDArray T (BitVec n) w] [BlendRest R γ] (c : Cfg) (z : Zip T R) :
    Res (Option ((Vector (BitVec n) w × γ) × Nat) × Zip T R) := do
  let pos ← SIMDIterable.scalarPos c z.first
  let (r, first) ← blanketEndBlend c z.first
  let z := { z with first := first }
  match r with
  | some (v, k) =>
    let vs ← BlendRest.endAllBlend c z.rest pos k
    ok (some ((v, vs), k), z)
  | none => ok (none, z)

end Faster
