import Verif.Bench
import Verif.Examples
import Verif.StrideZip
/-
The zip benchmarks of benches/usage.rs and the scalar loops beside them, each on any slice.
The operators of vectors are those of the hardware, lane by lane.
-/
namespace Faster
open Res SIMDSized SIMDIterable SIMDIterator

/-- `slice::chunks`: pieces of `k` elements, the last one with the rest. -/
def chunks {α : Type} (k : Nat) (l : List α) : List (List α) :=
  (List.range ((l.length + k - 1) / k)).map fun i => (l.drop (i * k)).take k

/-- `m[j]`: a checked access. -/
def at' {α : Type} (m : List α) (j : Nat) : Res α :=
  match m[j]? with
  | some x => ok x
  | none => panic

/-- `determinant3_simd` (benches/usage.rs:205-216). -/
def determinant3Simd (w : Nat) (cf : Cfg) (fuel : Nat) (data : List (BitVec 32)) :
    Res (List (Option (BitVec 32))) := do
  let z : Vector (BitVec 32) w := Packed.splat 0#32
  let M := Vector.zipWith (n := w) fmul
  let P := Vector.zipWith (n := w) fadd
  let N := Vector.zipWith (n := w) fsub
  let t := strideNine (⟨data⟩ : Slice (BitVec 32) w) (z, z, z, z, z, z, z, z, z)
  let it ← zip cf t.1 (t.2.1, t.2.2.1, t.2.2.2.1, t.2.2.2.2.1, t.2.2.2.2.2.1, t.2.2.2.2.2.2.1,
    t.2.2.2.2.2.2.2.1, t.2.2.2.2.2.2.2.2, ())
  let (_, out) ← scalarCollect cf fuel (zsimdMap it () (fun _
    (v : Vector (BitVec 32) w × Vector (BitVec 32) w × Vector (BitVec 32) w × Vector (BitVec 32) w ×
      Vector (BitVec 32) w × Vector (BitVec 32) w × Vector (BitVec 32) w × Vector (BitVec 32) w ×
      Vector (BitVec 32) w × Unit) =>
      let (a, b, c, d, e, f, g, h, i, _) := v
      ok (N (N (N (P (P (M (M a e) i) (M (M b f) g)) (M (M c d) h)) (M (M c e) g)) (M (M b d) i))
        (M (M a f) h), ())))
  ok out

/-- `determinant3_scalar` (benches/usage.rs:218-228). -/
def determinant3Scalar (data : List (BitVec 32)) : Res (List (BitVec 32)) :=
  (chunks 9 data).mapM fun m => do
    let a ← at' m 0
    let b ← at' m 1
    let c ← at' m 2
    let d ← at' m 3
    let e ← at' m 4
    let f ← at' m 5
    let g ← at' m 6
    let h ← at' m 7
    let i ← at' m 8
    ok (fsub (fsub (fsub (fadd (fadd (fmul (fmul a e) i) (fmul (fmul b f) g)) (fmul (fmul c d) h))
      (fmul (fmul c e) g)) (fmul (fmul b d) i)) (fmul (fmul a f) h))

/-- `determinant2_simd` (benches/usage.rs:230-241). -/
def determinant2Simd (w : Nat) (cf : Cfg) (fuel : Nat) (data : List (BitVec 32)) :
    Res (List (Option (BitVec 32))) := do
  let z : Vector (BitVec 32) w := Packed.splat 0#32
  let t := strideFour (⟨data⟩ : Slice (BitVec 32) w) (z, z, z, z)
  let it ← zip cf t.1 (t.2.1, t.2.2.1, t.2.2.2, ())
  let (_, out) ← scalarCollect cf fuel (zsimdMap it () (fun _
    (v : Vector (BitVec 32) w × Vector (BitVec 32) w × Vector (BitVec 32) w × Vector (BitVec 32) w ×
      Unit) =>
      ok (Vector.zipWith fsub (Vector.zipWith fmul v.1 v.2.2.2.1)
        (Vector.zipWith fmul v.2.1 v.2.2.1), ())))
  ok out

/-- `determinant2_scalar` (benches/usage.rs:243-252). -/
def determinant2Scalar (data : List (BitVec 32)) : Res (List (BitVec 32)) :=
  (chunks 4 data).mapM fun m => do
    let a ← at' m 0
    let b ← at' m 1
    let c ← at' m 2
    let d ← at' m 3
    ok (fsub (fmul a d) (fmul b c))

/-- `zip_scalar` (benches/usage.rs:266-275). -/
def zipScalar (data : List (BitVec 32)) : Res (List (BitVec 32)) :=
  (chunks 2 data).mapM fun m => do
    let a ← at' m 0
    let b ← at' m 1
    ok (fconv 32 (fadd (fabsScalar (fofInt 64 a.toInt)) (fabsScalar (fofInt 64 b.toInt))))

/-- `zip_nop_simd` (benches/usage.rs:277-286) and `stride_zip_naive` (349-357): sums of the
elements at even and odd places; `add` is the operator of the element type. -/
def zipNopSimd {α : Type} [Packable α] (add : α → α → α) (z : α) (w : Nat) (c : Cfg) (fuel : Nat)
    (data : List α) : Res (List (Option α)) := do
  let t := strideTwo (w := w) (⟨data⟩ : Slice α w) (Packed.splat z, Packed.splat z)
  let it ← zip c t.1 (t.2, ())
  let (_, out) ← scalarCollect c fuel (zsimdMap it () (fun _
    (v : Vector α w × Vector α w × Unit) => ok (Vector.zipWith add v.1 v.2.1, ())))
  ok out

/-- `zip_nop_scalar` (benches/usage.rs:288-297). -/
def zipNopScalar {α : Type} (add : α → α → α) (data : List α) : Res (List α) :=
  (chunks 2 data).mapM fun m => do
    let a ← at' m 0
    let b ← at' m 1
    ok (add a b)

/-- `stride_zip` (benches/usage.rs:359-367). -/
def strideZipBench {α : Type} [Packable α] (add : α → α → α) (z : α) (w : Nat) (c : Cfg) (fuel : Nat)
    (data : List α) : Res (List (Option α)) := do
  let it ← strideZip c (simdIter (w := w) data (Packed.splat z))
  let (_, out) ← scalarCollect c fuel (zsimdMap it ()
    (fun _ (v : Vector α w × Vector α w) => ok (Vector.zipWith add v.1 v.2, ())))
  ok out

/-- `nop_simd` (benches/usage.rs:13-18) -/
def nopSimd {α : Type} [Packable α] (z : α) (w : Nat) (c : Cfg) (fuel : Nat) (data : List α) :
    Res (List (Option α)) := do
  let (_, out) ← scalarCollect c fuel (simdMap (simdIter (w := w) data (Packed.splat z)) ()
    (fun _ v => ok (v, ())))
  ok out

end Faster
