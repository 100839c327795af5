import Verif.IntTests
import Verif.Intrin.Shuffle
import Verif.Intrin.Merge
import Verif.Intrin.Arith
/-
The unit tests of `src/intrin/merge.rs`, `endian.rs`, `eq.rs`, `sqrt.rs` and `transmute.rs`,
`src/arch/x86/intrin/swizzle.rs` and `src/arch/x86/vecs.rs`, with parameters in place of the
literals. `same` is `assert_eq!` of the vector type: `assertSame` for integers, `assertEq` for
floats.
-/
namespace Faster
open Res

variable {n w : Nat}

/-! ### src/intrin/merge.rs -/

/-- The loop of `test_packed_merge!` (src/intrin/merge.rs:134-137), by the number of iterations
left; `mp` is `merge_partitioned`, `part` is `partition`. -/
def mergeTestLoop (same : Vector (BitVec n) w → Vector (BitVec n) w → Res Unit)
    (mp : Vector (BitVec n) w → Vector (BitVec n) w → Nat → Res (Vector (BitVec n) w))
    (part : BitVec n → BitVec n → Nat → Res (Vector (BitVec n) w)) (x y : BitVec n) : Nat → Nat → Res Unit
  | 0, _ => ok ()
  | k + 1, i => do
    let u ← mp (Packed.splat x) (Packed.splat y) i
    let v ← part x y i
    same u v
    let u ← mp (Packed.splat y) (Packed.splat x) i
    let v ← part y x i
    same u v
    mergeTestLoop same mp part x y k (i + 1)

/-- `test_packed_merge!` (src/intrin/merge.rs:118-140) with the constants `x` for 30 and `y` for 5;
`mi` is `merge_interleaved`, `mh` is `merge_halves`. -/
def mergeTest (same : Vector (BitVec n) w → Vector (BitVec n) w → Res Unit)
    (mi mh : Vector (BitVec n) w → Vector (BitVec n) w → Res (Vector (BitVec n) w))
    (mp : Vector (BitVec n) w → Vector (BitVec n) w → Nat → Res (Vector (BitVec n) w))
    (part : BitVec n → BitVec n → Nat → Res (Vector (BitVec n) w)) (x y : BitVec n) : Res Unit := do
  let u ← mi (Packed.splat x) (Packed.splat y)
  same u (interleave x y)
  let u ← mi (Packed.splat y) (Packed.splat x)
  same u (interleave y x)
  let u ← mh (Packed.splat x) (Packed.splat y)
  same u (halfs x y)
  let u ← mh (Packed.splat y) (Packed.splat x)
  same u (halfs y x)
  mergeTestLoop same mp part x y w 0

/-! ### src/intrin/endian.rs and src/arch/x86/intrin/swizzle.rs -/

/-- `test_packed_swap_bytes!` (src/intrin/endian.rs:93-106); the types are integers. -/
def swapTest (swap : Vector (BitVec n) w → Res (Vector (BitVec n) w)) (x y : BitVec n) : Res Unit := do
  let u ← swap (interleave x y)
  assertSame u (interleave (swapBytesScalar x) (swapBytesScalar y))

/-- `test_packed_swizzle!` (src/arch/x86/intrin/swizzle.rs:102-115). -/
def flipTest (same : Vector (BitVec n) w → Vector (BitVec n) w → Res Unit)
    (flip : Vector (BitVec n) w → Res (Vector (BitVec n) w)) (x y : BitVec n) : Res Unit := do
  let u ← flip (interleave x y)
  same u (interleave y x)

/-! ### src/intrin/eq.rs -/

/-- `test_packed_eq!` (src/intrin/eq.rs:78-95) with the constants `x` for 1 and `y` for 0. The
masks are vectors of unsigned integers. -/
def eqTest (eq : Vector (BitVec n) w → Vector (BitVec n) w → Res (Vector (BitVec n) w))
    (x y : BitVec n) : Res Unit := do
  let m ← eq (halfs x y) (Packed.splat y)
  assertSame m (halfs 0#n (BitVec.allOnes n))
  let m ← eq (interleave x y) (Packed.splat x)
  assertSame m (interleave (BitVec.allOnes n) 0#n)
  let m ← eq (halfs x y) (Packed.splat y)
  assertSame (neMask m) (halfs (BitVec.allOnes n) 0#n)
  let m ← eq (interleave x y) (Packed.splat x)
  assertSame (neMask m) (interleave 0#n (BitVec.allOnes n))

/-! ### src/intrin/sqrt.rs -/

/-- `sqrt_f32s` and `sqrt_f64s` (src/intrin/sqrt.rs:30-42), with `one` for both literals 1.0, `x`
for 9.0, `lo` for 2.999 and `hi` for 3.001. -/
def sqrtTest (sqrt : Vector (BitVec n) w → Res (Vector (BitVec n) w))
    (max min : Vector (BitVec n) w → Vector (BitVec n) w → Res (Vector (BitVec n) w))
    (one x lo hi : BitVec n) : Res Unit := do
  let u ← sqrt (Packed.splat one)
  assertEq u (Packed.splat one)
  let u ← sqrt (Packed.splat x)
  let u ← max u (Packed.splat lo)
  let v ← sqrt (Packed.splat x)
  assertEq u v
  let u ← sqrt (Packed.splat x)
  let u ← min u (Packed.splat hi)
  let v ← sqrt (Packed.splat x)
  assertEq u v

/-! ### src/intrin/transmute.rs -/

/-- One assertion of `test_transmute!`: through lanes of `m` bits and back. -/
def transmuteVia (same : Vector (BitVec n) w → Vector (BitVec n) w → Res Unit)
    (v : Vector (BitVec n) w) (m : Nat) : Res Unit :=
  same (reinterpret (reinterpret v : Vector (BitVec m) (w * n / m))) v

/-- `test_transmute!` (src/intrin/transmute.rs:108-122) on any vector; signed and unsigned lanes
of a size are the same bits. -/
def transmuteTest (same : Vector (BitVec n) w → Vector (BitVec n) w → Res Unit)
    (v : Vector (BitVec n) w) : Res Unit := do
  transmuteVia same v 8
  transmuteVia same v 8
  transmuteVia same v 16
  transmuteVia same v 16
  transmuteVia same v 32
  transmuteVia same v 32
  transmuteVia same v 64
  transmuteVia same v 64

/-! ### src/arch/x86/vecs.rs -/

/-- `test_product!` (src/arch/x86/vecs.rs:40-56) for an integer type, with `x` for the lanes and
`p` for the expected product. -/
def productTest (c : Cfg) (k : Kind) (w : Nat) (x p : BitVec n) : Res Unit := do
  let a ← Packed.product 1#n (fun acc s => overflowCheck c k (k.value acc * k.value s) (acc * s))
    (Packed.splat x : Vector (BitVec n) w)
  assertSame a p

/-- `test_product!` for a float type. -/
def productTestF (w : Nat) (x p : BitVec n) : Res Unit := do
  let a ← Packed.product (fofInt n 1) (fun acc s => ok (fmul acc s))
    (Packed.splat x : Vector (BitVec n) w)
  assert (feq a p)

end Faster
