import Verif.Lemmas.Round
import Verif.Intrin.Cast
import Verif.Intrin.Round
import Mathlib.Data.Nat.Sqrt
/-
Float arithmetic on bit patterns. Not code of the crate: the meaning of Rust's `+`,
`-`, `*`, `/`, `sqrt` and `as` for `f32` and `f64`, and of the x86 instructions ADDPS,
SUBPS, MULPS, DIVPS, SQRTPS, CVTPS2PD and CVTDQ2PD (and their PD and scalar forms), in
the default rounding mode. All of them return the float nearest to the exact result.

Simplification: a NaN result is always the same quiet NaN, although hardware keeps the
payload of an operand.
-/
namespace Faster
open Res

variable {n k w w' : Nat}

/-- `p / d` rounded to the nearest integer, ties to even. -/
def roundEven (p d : Nat) : Nat :=
  if 2 * (p % d) < d ∨ (2 * (p % d) = d ∧ p / d % 2 = 0) then p / d else p / d + 1

/-- Magnitude bits of the float nearest to `p / d` units (a unit is the smallest
subnormal number), `m` fraction bits, no limit for the exponent. `k` is the number of
bits of the integer part which do not fit. -/
def roundUnits (m p d : Nat) : Nat :=
  let k := (p / d).log2 - m
  k * 2 ^ m + roundEven p (d * 2 ^ k)

/-- The float of sign `neg` nearest to `p / d` units; too large becomes infinite. -/
def fpack (n : Nat) (neg : Bool) (p d : Nat) : BitVec n :=
  BitVec.ofNat n ((if neg then 2 ^ (n - 1) else 0) +
    min (roundUnits (mantBits n) p d) (infBits n))

/-- The number one is `2 ^ fone n` units. -/
def fone (n : Nat) : Nat := mantBits n + (expBias n - 1)

/-- Magnitude in units. -/
def fnum (x : BitVec n) : Nat := funits (mantBits n) (fmag x)

/-- Value in units. -/
def fint (x : BitVec n) : Int := if x.msb then -(fnum x : Int) else fnum x

/-- Infinite. -/
def finf (x : BitVec n) : Bool := fmag x == infBits n

/-- The quiet NaN. -/
def qnan (n : Nat) : BitVec n := BitVec.ofNat n (infBits n + 2 ^ (mantBits n - 1))

/-- Infinities and zeros of either sign. -/
def fInf (n : Nat) (neg : Bool) : BitVec n :=
  BitVec.ofNat n ((if neg then 2 ^ (n - 1) else 0) + infBits n)

@[inherit_doc fInf]
def fZero (n : Nat) (neg : Bool) : BitVec n :=
  BitVec.ofNat n ((if neg then 2 ^ (n - 1) else 0) + 0)

/-- `-x`: flips the sign bit. -/
def fneg (x : BitVec n) : BitVec n :=
  BitVec.ofNat n ((if x.msb then 0 else 2 ^ (n - 1)) + fmag x)

/-- `x + y`. The sum of two zeros or of opposite numbers is `+0`, except `-0 + -0`. -/
def fadd (x y : BitVec n) : BitVec n :=
  if fnan x || fnan y then qnan n
  else if finf x then (if finf y && x.msb != y.msb then qnan n else x)
  else if finf y then y
  else if fint x + fint y = 0 then fZero n (x.msb && y.msb)
  else fpack n (fint x + fint y < 0) (fint x + fint y).natAbs 1

/-- `x - y`. -/
def fsub (x y : BitVec n) : BitVec n := fadd x (fneg y)

/-- `x * y`. -/
def fmul (x y : BitVec n) : BitVec n :=
  if fnan x || fnan y then qnan n
  else if finf x || finf y then
    (if fmag x == 0 || fmag y == 0 then qnan n else fInf n (x.msb != y.msb))
  else fpack n (x.msb != y.msb) (fnum x * fnum y) (2 ^ fone n)

/-- `x / y`. -/
def fdiv (x y : BitVec n) : BitVec n :=
  if fnan x || fnan y || (finf x && finf y) || (fmag x == 0 && fmag y == 0) then qnan n
  else if finf x || fmag y == 0 then fInf n (x.msb != y.msb)
  else if finf y then fZero n (x.msb != y.msb)
  else fpack n (x.msb != y.msb) (fnum x * 2 ^ fone n) (fnum y)

/-- `x.sqrt()`. In units the root is `√N` with `N = fnum x * 2 ^ fone n`; between two
integers it rounds like the number half-way between them. -/
def fsqrt (x : BitVec n) : BitVec n :=
  if fnan x then qnan n
  else if fmag x == 0 then x
  else if x.msb then qnan n
  else if finf x then x
  else
    let N := fnum x * 2 ^ fone n
    let s := Nat.sqrt N
    fpack n false (2 * s + if s * s = N then 0 else 1) 2

/-- `x as f32` and `x as f64` from the other format. -/
def fconv (k : Nat) (x : BitVec n) : BitVec k :=
  if fnan x then qnan k
  else if finf x then fInf k x.msb
  else fpack k x.msb (fnum x * 2 ^ fone k) (2 ^ fone n)

/-- `z as f32` and `z as f64` from an integer type. -/
def fofInt (k : Nat) (z : Int) : BitVec k := fpack k (z < 0) (z.natAbs * 2 ^ fone k) 1

/-- `x as i32`, `x as u64`, …: rounded towards zero; too large and too small numbers
become the limits of the type, NaN becomes 0. (Before Rust 1.45 the result for such
numbers was undefined.) -/
def ftoInt (kind : Kind) (k : Nat) (x : BitVec n) : BitVec k :=
  if fnan x then 0#k
  else if finf x then BitVec.ofInt k (if x.msb then kind.lo k else kind.hi k)
  else BitVec.ofInt k (max (kind.lo k) (min (kind.hi k) ((fint x).tdiv (2 ^ fone n))))

/-- `x.recip()`: `1.0 / x`. -/
def frecip (x : BitVec n) : BitVec n := fdiv (fofInt n 1) x

/-! ### Casts of the crate -/

/-- Lane conversion of the upcasts to `f64`: `x as f64` or CVTPS2PD from `f32`, `x as
f64` or CVTDQ2PD from `i32` (src/arch/x86/intrin/upcast.rs:321-340, 341-360, 403-470,
528-573; src/arch/unknown/intrin/upcast.rs). -/
def toFloat (kind : Kind) (x : BitVec n) : BitVec k :=
  if kind = .f then fconv k x else fofInt k x.toInt

/-- `saturating_downcast` from `f64` (src/arch/x86/intrin/downcast.rs:61-70, 343-356;
src/arch/unknown/intrin/downcast.rs:45-54, 261-274): `f32x4::new(self.extract(0) as
f32, …)`. -/
def downcastFloat (lanes : List DownLane) (self other : Vector (BitVec n) w) :
    Res (Vector (BitVec k) w') :=
  newLanes (lanes.map fun l => do
    ok (fconv k (← Packed.extract (if l.self then self else other) l.idx)))

/-- `Sqrt::sqrt` (src/arch/x86/intrin/sqrt.rs, src/arch/unknown/intrin/sqrt.rs,
src/intrin/macros.rs:9-30): SQRTPS, SQRTPD and VSQRT… if `opt`, otherwise lane by lane. -/
def sqrtOf (opt : Bool) (r : UnRow) (self : Vector (BitVec n) r.width) :
    Res (Vector (BitVec n) r.width) :=
  match opt, r.mm with
  | true, .mm_sqrt_ps | true, .mm_sqrt_pd | true, .mm256_sqrt_ps | true, .mm256_sqrt_pd =>
    ok (self.map fsqrt)
  | _, _ => rootFallback fsqrt frecip r self

end Faster
