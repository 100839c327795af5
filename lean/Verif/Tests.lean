import Verif.Iters
import Verif.Zip
import Verif.Intrin.Ieee
import Verif.Intrin.Sum
/-
The programs of tests/iters.rs and tests/kernel.rs, each on any slices. The operators of
vectors are those of the hardware, lane by lane.
-/
namespace Faster
open Res SIMDSized SIMDIterable SIMDIterator

variable {n : Nat}

/-- `in_place_mutation` (tests/iters.rs:14-15): the slice after
`simd_iter_mut(f32s(0.0)).simd_for_each(|x| *x /= f32s(s))`, with `s = 2`. -/
def divInPlace (w : Nat) (c : Cfg) (fuel : Nat) (s : BitVec 32) (data : List (BitVec 32)) :
    Res (List (BitVec 32)) :=
  match simdForEach c fuel () (fun _ x => ok (Vector.zipWith fdiv x (Packed.splat s), ()))
      (simdIter (w := w) data (Packed.splat 0#32)) with
  | (r, it) => do
    r
    ok it.data.elems

/-- The scalar loop beside it (tests/iters.rs:17-18). -/
def divScalar (s : BitVec 32) (data : List (BitVec 32)) : List (BitVec 32) :=
  data.map fun x => fdiv x s

/-- `simd_reduce` (tests/iters.rs:36), with any version of `sum`. -/
def reduceTest (w : Nat) (sum : Vector (BitVec n) w → Res (BitVec n)) (c : Cfg) (fuel : Nat)
    (data : List (BitVec n)) : Res (BitVec n) := do
  let (_, acc, _) ← simdReduce c fuel (simdIter (w := w) data (Packed.splat 0)) (Packed.splat 0) ()
    (fun _ acc x => ok (Vector.zipWith (· + ·) acc x, ()))
  sum acc

/-- The closure `|(a, b)| (a - b) * (a - b)` (tests/kernel.rs:30, 39, 79). -/
def kernelVec {w : Nat} (sub mul : BitVec n → BitVec n → BitVec n)
    (v : Vector (BitVec n) w × Vector (BitVec n) w × Unit) : Vector (BitVec n) w :=
  Vector.zipWith mul (Vector.zipWith sub v.1 v.2.1) (Vector.zipWith sub v.1 v.2.1)

/-- `iter().sum()` of integers: an overflow panics in debug builds. -/
def iterSum (c : Cfg) (k : Kind) (l : List (BitVec n)) : Res (BitVec n) :=
  l.foldlM (fun acc s => overflowCheck c k (k.value acc + k.value s) (acc + s)) 0#n

/-- `kernel_definite!`, first part (tests/kernel.rs:29-33). -/
def kernelFill (w : Nat) (k : Kind) (c : Cfg) (fuel : Nat) (xs ys buf : List (BitVec n)) :
    Res (BitVec n) := do
  let z ← zip c (simdIter (w := w) xs (Packed.splat 0)) (simdIter (w := w) ys (Packed.splat 0), ())
  let (_, out) ← scalarFill c fuel (zsimdMap z ()
    (fun _ (v : Vector (BitVec n) w × Vector (BitVec n) w × Unit) =>
      ok (kernelVec (· - ·) (· * ·) v, ()))) buf
  iterSum c k out

/-- `kernel_definite!`, second part (tests/kernel.rs:38-41), with any version of `sum`. -/
def kernelReduce (w : Nat) (sum : Vector (BitVec n) w → Res (BitVec n)) (c : Cfg) (fuel : Nat)
    (xs ys : List (BitVec n)) : Res (BitVec n) := do
  let z ← zip c (simdIter (w := w) xs (Packed.splat 0)) (simdIter (w := w) ys (Packed.splat 0), ())
  let (_, acc, _) ← simdReduce c fuel (zsimdMap z ()
    (fun _ (v : Vector (BitVec n) w × Vector (BitVec n) w × Unit) =>
      ok (kernelVec (· - ·) (· * ·) v, ()))) (Packed.splat 0) ()
    (fun _ a v => ok (Vector.zipWith (· + ·) a v, ()))
  sum acc

/-- `kernel_relative!`, `sum_simd` (tests/kernel.rs:76-81). -/
def kernelFloat (w : Nat) (sum : Vector (BitVec n) w → Res (BitVec n)) (c : Cfg) (fuel : Nat)
    (xs ys : List (BitVec n)) : Res (BitVec n) := do
  let z ← zip c (simdIter (w := w) xs (Packed.splat (fZero n false)))
    (simdIter (w := w) ys (Packed.splat (fZero n false)), ())
  let (_, acc, _) ← simdReduce c fuel (zsimdMap z ()
    (fun _ (v : Vector (BitVec n) w × Vector (BitVec n) w × Unit) => ok (kernelVec fsub fmul v, ()))) (Packed.splat (fZero n false)) ()
    (fun _ a v => ok (Vector.zipWith fadd a v, ()))
  sum acc

/-- `kernel_relative!`, `sum_scalar` (tests/kernel.rs:70-73). The sum of the standard library starts
with `0.0` (`-0.0` in later versions, an equal number). -/
def kernelFloatScalar (xs ys : List (BitVec n)) : BitVec n :=
  (List.zipWith (fun a b => fmul (fsub a b) (fsub a b)) xs ys).foldl fadd (fZero n false)

end Faster
