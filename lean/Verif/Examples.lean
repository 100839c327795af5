import Verif.Zip
import Verif.Stride
import Verif.Intrin.Bits
/-
Programs which use the crate: `zip_simd` of benches/usage.rs and the integer pipelines
of examples/main.rs. The functions of the vector types are parameters; which
instructions they are depends on the target.
-/
namespace Faster
open Res SIMDSized SIMDIterable SIMDIterator

/-- The operations which `zip_simd` uses. `i32s` has `2 * q` lanes, `i64s` has `q`. -/
structure ZipSimdOps (q : Nat) where
  /-- `i32s::upcast` -/
  up : Vector (BitVec 32) (2 * q) → Res (Vector (BitVec 64) q × Vector (BitVec 64) q)
  /-- `i64s::abs`, which returns a `u64s` -/
  abs : Vector (BitVec 64) q → Res (Vector (BitVec 64) q)
  /-- `u64s::saturating_downcast` -/
  down : Vector (BitVec 64) q → Vector (BitVec 64) q → Res (Vector (BitVec 32) (2 * q))

/-- The closure of `zip_simd` (benches/usage.rs:258-262). The additions are those of
`u64`; the sums of two magnitudes do not overflow. -/
def zipSimdBody {q : Nat} (o : ZipSimdOps q) :
    FnMut Unit (Vector (BitVec 32) (2 * q) × Vector (BitVec 32) (2 * q) × Unit)
      (Vector (BitVec 32) (2 * q)) := fun _ (a, b, _) => do
  let (aa, ab) ← o.up a
  let (ba, bb) ← o.up b
  let x ← o.abs aa
  let y ← o.abs ba
  let z ← o.abs ab
  let t ← o.abs bb
  let r ← o.down (Vector.zipWith (· + ·) x y) (Vector.zipWith (· + ·) z t)
  ok (r, ())

/-- `zip_simd` (benches/usage.rs:254-264) on any slice. -/
def zipSimd {q : Nat} (o : ZipSimdOps q) (c : Cfg) (fuel : Nat) (data : List (BitVec 32)) :
    Res (List (Option (BitVec 32))) := do
  let t := strideTwo (w := 2 * q) (⟨data⟩ : Slice (BitVec 32) (2 * q)) (Packed.splat 0#32, Packed.splat 0#32)
  let z ← zip c t.1 (t.2, ())
  let (_, out) ← scalarCollect c fuel (zsimdMap z () (zipSimdBody o))
  ok out

/-- The closure of the first determinants in tests/zip.rs (lines 22-32): the last lanes of
the nine vectors are `p 0`, …, `p 8` (there 1, …, 9). `mul`, `add` and `sub` are the
operations of the element type. -/
def determinantTest {α : Type} [BEq α] {w : Nat} (p : Nat → α) (mul add sub : α → α → α) (cf : Cfg) :
    FnMut Unit (Vector α w × Vector α w × Vector α w × Vector α w × Vector α w × Vector α w ×
      Vector α w × Vector α w × Vector α w × Unit) (Vector α w) :=
  fun _ (a, b, c, d, e, f, g, h, i, _) => do
    let last ← usub cf w 1
    assert ((← Packed.extract a last) == p 0)
    assert ((← Packed.extract b last) == p 1)
    assert ((← Packed.extract c last) == p 2)
    assert ((← Packed.extract d last) == p 3)
    assert ((← Packed.extract e last) == p 4)
    assert ((← Packed.extract f last) == p 5)
    assert ((← Packed.extract g last) == p 6)
    assert ((← Packed.extract h last) == p 7)
    assert ((← Packed.extract i last) == p 8)
    let M := Vector.zipWith mul
    let P := Vector.zipWith add
    let N := Vector.zipWith sub
    ok (N (N (N (P (P (M (M a e) i) (M (M b f) g)) (M (M c d) h)) (M (M c e) g)) (M (M b d) i))
      (M (M a f) h), ())

/-- The first determinants in tests/zip.rs (lines 19-32) for any slice of matrices, up to
the assertion about the results. -/
def zippedStrideTest {α : Type} [BEq α] [Packable α] (w : Nat) (p : Nat → α)
    (mul add sub : α → α → α) (z : α) (c : Cfg) (fuel : Nat) (matrices : List α) :
    Res (List (Option α)) := do
  let s : Vector α w := Packed.splat z
  let t := strideNine (⟨matrices⟩ : Slice α w) (s, s, s, s, s, s, s, s, s)
  let z ← zip c t.1 (t.2.1, t.2.2.1, t.2.2.2.1, t.2.2.2.2.1, t.2.2.2.2.2.1, t.2.2.2.2.2.2.1,
    t.2.2.2.2.2.2.2.1, t.2.2.2.2.2.2.2.2, ())
  let (_, out) ← scalarCollect c fuel (zsimdMap z () (determinantTest (w := w) p mul add sub c))
  ok out

/-- `lots_of_84s` (examples/main.rs:14-17) on any slice; `abs` is `i8s::abs`, `be_i8s` keeps
the bits, the operators wrap. -/
def exampleAbs {w : Nat} (abs : Vector (BitVec 8) w → Res (Vector (BitVec 8) w)) (c : Cfg)
    (fuel : Nat) (data : List (BitVec 8)) : Res (List (Option (BitVec 8))) := do
  let (_, out) ← scalarCollect c fuel (simdMap (simdMap (simdIter data (Packed.splat 0#8)) ()
    (fun _ v => do ok (((← abs v).map fun x => 9#8 * x - 4#8 - 2#8 : Vector (BitVec 8) w), ())))
    () (fun _ (v : Vector (BitVec 8) w) => ok (v, ())))
  ok out

/-- `filled_u8s` (examples/main.rs:29-32) on any slice and any buffer. -/
def exampleFill (w : Nat) (c : Cfg) (fuel : Nat) (data buf : List (BitVec 8)) :
    Res (List (BitVec 8)) := do
  let (_, out) ← scalarFill c fuel (simdMap (simdIter (w := w) data (Packed.splat 0#8)) ()
    (fun _ (v : Vector (BitVec 8) w) => ok (v.map (· * 2#8), ()))) buf
  ok out

/-- `strided` (examples/main.rs:37-39) on any slice. -/
def exampleStrided (w : Nat) (c : Cfg) (fuel : Nat) (data : List (BitVec 32)) :
    Res (List (Option (BitVec 32))) := do
  let t := strideTwo (⟨data⟩ : Slice (BitVec 32) w) ((Packed.splat 99#32 : Vector _ w), Packed.splat 99#32)
  let z ← zip c t.1 (t.2, ())
  let (_, out) ← scalarCollect c fuel (zsimdMap z ()
    (fun _ (v : Vector (BitVec 32) w × Vector (BitVec 32) w × Unit) =>
      ok (Vector.zipWith (· + ·) v.1 v.2.1, ())))
  ok out

end Faster
