import Verif.Bench
/-
The unit tests of `src/intrin/round.rs` and `src/intrin/recip.rs`, with any limit in place of
the literals 32.0 and 1024.0, and the documentation examples of `recip` and `rsqrt`.
-/
namespace Faster
open Res

variable {n w : Nat}

/-- A decimal literal `p / q`: the nearest float. -/
def flit (n p q : Nat) : BitVec n := fpack n false (p * 2 ^ fone n) q

/-- `assert_eq!` of two vectors of floats: `PartialEq`, lane by lane. -/
def assertEq (a b : Vector (BitVec n) w) : Res Unit := assert ((a.zip b).all fun p => feq p.1 p.2)

/-! ### src/intrin/round.rs -/

/-- Whether the tests expect `i + 1` instead of `i` from `i + 0.4` and from `i + 0.8`
(src/intrin/round.rs:82-83, 106-107, 130-131, 154-155). -/
def expectUp : UnFn → Bool × Bool
  | .round => (false, true)
  | .ceil => (true, true)
  | _ => (false, false)

/-- Whether the tests expect `i - 1` instead of `i` from `i - 0.4` and from `i - 0.8`
(src/intrin/round.rs:90-91, 114-115, 138-139, 162-163). -/
def expectDown : UnFn → Bool × Bool
  | .round => (false, true)
  | .floor => (true, true)
  | _ => (false, false)

/-- The first loop of the tests of `round`, `trunc`, `ceil` and `floor`
(src/intrin/round.rs:79-85, 103-109, 127-133, 151-157, and the same for `f64s` below). -/
def roundTestUp (opt : Bool) (r : UnRow) (limit : BitVec (8 * r.size)) :
    Nat → BitVec (8 * r.size) → Res Unit
  | 0, _ => hang
  | fuel + 1, i =>
    if flt i limit then (do
      let one := fofInt (8 * r.size) 1
      let a ← roundOf opt r (Packed.splat i)
      assertEq (Packed.splat i) a
      let b ← roundOf opt r (Packed.splat (fadd i (flit _ 4 10)))
      assertEq (Packed.splat (if (expectUp r.fn).1 then fadd i one else i)) b
      let d ← roundOf opt r (Packed.splat (fadd i (flit _ 8 10)))
      assertEq (Packed.splat (if (expectUp r.fn).2 then fadd i one else i)) d
      roundTestUp opt r limit fuel (fadd i one))
    else ok ()

/-- The second loop (src/intrin/round.rs:87-93, 111-117, 135-141, 159-165). -/
def roundTestDown (opt : Bool) (r : UnRow) (limit : BitVec (8 * r.size)) :
    Nat → BitVec (8 * r.size) → Res Unit
  | 0, _ => hang
  | fuel + 1, i =>
    if flt limit i then (do
      let one := fofInt (8 * r.size) 1
      let a ← roundOf opt r (Packed.splat i)
      assertEq (Packed.splat i) a
      let b ← roundOf opt r (Packed.splat (fsub i (flit _ 4 10)))
      assertEq (Packed.splat (if (expectDown r.fn).1 then fsub i one else i)) b
      let d ← roundOf opt r (Packed.splat (fsub i (flit _ 8 10)))
      assertEq (Packed.splat (if (expectDown r.fn).2 then fsub i one else i)) d
      roundTestDown opt r limit fuel (fsub i one))
    else ok ()

/-! ### src/intrin/recip.rs -/

/-- The test of `recip` (src/intrin/recip.rs:31-41); `recip` is the method of the vector type. -/
def recipTest (recip : Vector (BitVec 32) w → Res (Vector (BitVec 32) w)) (limit : BitVec 32) :
    Nat → BitVec 32 → Res Unit
  | 0, _ => hang
  | fuel + 1, i =>
    if flt i limit then (do
      let v ← recip (Packed.splat i)
      let ans ← Packed.extract v 0
      let real ← Packed.extract (Packed.splat (fdiv (fofInt 32 1) i) : Vector (BitVec 32) w) 0
      assert ((feq real (fInf 32 false) && feq ans (fInf 32 false)) ||
        flt (fabsScalar (fsub ans real)) (flit 32 5 10000))
      recipTest recip limit fuel (fadd i (fofInt 32 1)))
    else ok ()

/-- The assertions of the documentation of `recip` and `rsqrt` (src/intrin/recip.rs:19-20,
src/intrin/rsqrt.rs:20-21): the method of a constant vector is within 0.01 of a literal. -/
def nearTest (c : Cfg) (f : Vector (BitVec 32) w → Res (Vector (BitVec 32) w)) (x y : BitVec 32) :
    Res Unit := do
  let v ← f (Packed.splat x)
  let a ← Packed.coalesce feq c v
  let v' ← f (Packed.splat x)
  let b ← Packed.coalesce feq c v'
  assert (flt (fsub y (flit 32 1 100)) a && flt b (fadd y (flit 32 1 100)))

end Faster
