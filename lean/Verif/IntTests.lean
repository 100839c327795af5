import Verif.FloatTests
import Verif.SoftCast
/-
The unit tests of `src/intrin` on constant and alternating vectors, with parameters in place of
the literals: `hadd.rs`, `hsub.rs`, `saturating_hadd.rs`, `saturating_hsub.rs`, `upcast.rs`,
`abs.rs`, `popcnt.rs` and `sum.rs`. Comparisons of integer vectors are equality of the lanes.
-/
namespace Faster
open Res

variable {n w : Nat}

/-- `assert_eq!` of two vectors of integers, or of two integers. -/
def assertSame {α : Type} [DecidableEq α] (a b : α) : Res Unit := assert (decide (a = b))

/-! ### Horizontal operations -/

/-- The tests of `hadd`, `hsub`, `saturating_hadd` and `saturating_hsub` for integer types
(src/intrin/hadd.rs:20-66, src/intrin/hsub.rs:20-66, src/intrin/saturating_hadd.rs:20-74,
src/intrin/saturating_hsub.rs:20-74): `splat(x).h(splat(y))` against `interleave(x', y')`, then
`interleave(a, b).h(interleave(p, q))` against `interleave(r, s)`. The third assertion of the
saturating tests has the form of the second. -/
def hopTest (h : Vector (BitVec n) w → Vector (BitVec n) w → Res (Vector (BitVec n) w))
    (x y x' y' a b p q r s : BitVec n) : Res Unit := do
  let u ← h (Packed.splat x) (Packed.splat y)
  assertSame u (interleave x' y')
  let v ← h (interleave a b) (interleave p q)
  assertSame v (interleave r s)

/-- The tests of `hadd` and `hsub` for float types (src/intrin/hadd.rs:68-78,
src/intrin/hsub.rs:68-78). -/
def hopTestF (h : Vector (BitVec n) w → Vector (BitVec n) w → Res (Vector (BitVec n) w))
    (x y x' y' a b p q r s : BitVec n) : Res Unit := do
  let u ← h (Packed.splat x) (Packed.splat y)
  assertEq u (interleave x' y')
  let v ← h (interleave a b) (interleave p q)
  assertEq v (interleave r s)

/-! ### upcast -/

/-- The tests of `upcast` (src/intrin/upcast.rs:32-80): both halves of the widened
`interleave(x, y)` against `interleave(x', y')`. -/
def upcastTest {m : Nat} (up : Vector (BitVec n) w → Res (Vector (BitVec m) (w / 2) × Vector (BitVec m) (w / 2)))
    (x y : BitVec n) (x' y' : BitVec m) : Res Unit := do
  let u ← up (interleave x y)
  assertSame u.1 (interleave x' y')
  let v ← up (interleave x y)
  assertSame v.2 (interleave x' y')

/-! ### abs -/

/-- The tests of `abs` for signed integers (src/intrin/abs.rs:29-55): the loop `for i in lo..hi`,
by the number of iterations left; `(i as i64).abs() as uN` is `i.natAbs` modulo `2^N`. -/
def absTest (abs : Vector (BitVec n) w → Res (Vector (BitVec n) w)) : Nat → Int → Res Unit
  | 0, _ => ok ()
  | k + 1, i => do
    let v ← abs (Packed.splat (BitVec.ofInt n i))
    let x ← Packed.extract v 0
    assertSame x (BitVec.ofNat n i.natAbs)
    absTest abs k (i + 1)

/-- The tests of `abs` for float types (src/intrin/abs.rs:57-75), with any limit. -/
def absTestF (abs : Vector (BitVec n) w → Res (Vector (BitVec n) w)) (limit : BitVec n) :
    Nat → BitVec n → Res Unit
  | 0, _ => hang
  | fuel + 1, i =>
    if flt i limit then (do
      let v ← abs (Packed.splat i)
      let x ← Packed.extract v 0
      assert (feq x (fabsScalar i))
      absTestF abs limit fuel (fadd i (fofInt n 1)))
    else ok ()

/-! ### popcnt -/

/-- `test_popcnt!` (src/intrin/popcnt.rs:36-52) for an element type of `size` bytes;
`ones` is `count_ones`. -/
def popTest (c : Cfg) (size : Nat) (ones : Vector (BitVec n) w → Res Nat) : Res Unit := do
  let a ← ones (Packed.splat 1#n)
  assertSame a w
  let z ← countZeroes c w size (ones (Packed.splat 1#n))
  let a ← ones (Packed.splat 1#n)
  let s ← uadd c z a
  let t ← umul c w size
  let t ← umul c t 8
  assertSame s t
  let a ← ones (Packed.splat (~~~ 0#n))
  let t ← umul c w size
  let t ← umul c t 8
  assertSame a t
  let z ← countZeroes c w size (ones (Packed.splat (~~~ 0#n)))
  assertSame z 0

/-! ### sum -/

/-- The body of `test_packed_sum_int!` (src/intrin/sum.rs:57-61): `sum` against a reduction with
`+`, `sum_upcast` against a reduction with `+` over `i64`. The reductions are written out as in
the fallbacks. -/
def sumBody (c : Cfg) (k : Kind) (sum : Vector (BitVec n) w → Res (BitVec n))
    (up : Vector (BitVec n) w → Res (BitVec 64)) (x : BitVec n) : Res Unit := do
  let a ← sum (Packed.splat x)
  let b ← Packed.scalarReduce (Packed.splat x : Vector (BitVec n) w) 0#n fun acc s =>
    overflowCheck c k (k.value acc + k.value s) (acc + s)
  assertSame a b
  let a ← up (Packed.splat x)
  let b ← Packed.scalarReduce (Packed.splat x : Vector (BitVec n) w) 0#64 fun acc s =>
    overflowCheck c .i (acc.toInt + (asI64 k s).toInt) (acc + asI64 k s)
  assertSame a b

/-- The loop of `test_packed_sum_int!` (src/intrin/sum.rs:56-63). `i` is the loop variable; its
update is checked for overflow in debug builds. -/
def sumLoop (c : Cfg) (k : Kind) (sum : Vector (BitVec n) w → Res (BitVec n))
    (up : Vector (BitVec n) w → Res (BitVec 64)) : Nat → BitVec n → Res Unit
  | 0, _ => hang
  | fuel + 1, i =>
    if k.value i < (k.hi n).tdiv 64 - 1 then (do
      sumBody c k sum up i
      let step := BitVec.ofInt n ((k.hi n).tdiv 20)
      let i ← overflowCheck c k (k.value i + k.value step) (i + step)
      sumLoop c k sum up fuel i)
    else ok ()

/-- `test_packed_sum_int!` (src/intrin/sum.rs:49-66): from `MIN / 64 + 1`. -/
def sumTest (c : Cfg) (k : Kind) (sum : Vector (BitVec n) w → Res (BitVec n))
    (up : Vector (BitVec n) w → Res (BitVec 64)) (fuel : Nat) : Res Unit :=
  sumLoop c k sum up fuel (BitVec.ofInt n ((k.lo n).tdiv 64 + 1))

/-- `test_packed_sum!` (src/intrin/sum.rs:68-81) for a float type: the loop `for i in lo..hi`, by
the number of iterations left. `sum` is given with the addition it uses. -/
def sumTestF (c : Cfg) (sum : Vector (BitVec n) w → Res (BitVec n))
    (up : Vector (BitVec n) w → Res (BitVec 64)) : Nat → Int → Res Unit
  | 0, _ => ok ()
  | k + 1, i => do
    let v : Vector (BitVec n) w := Packed.splat (fofInt n i)
    let a ← sum v
    let b ← Packed.scalarReduce v (fZero n false) fun acc s => ok (fadd acc s)
    assert (feq a b)
    let a ← up v
    let b ← Packed.scalarReduce v 0#64 fun acc s =>
      overflowCheck c .i (acc.toInt + (ftoInt .i 64 s).toInt) (acc + ftoInt .i 64 s)
    assertSame a b
    sumTestF c sum up k (i + 1)

end Faster
