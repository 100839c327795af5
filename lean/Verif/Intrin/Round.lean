import Verif.Intrin.Arith
import Verif.Intrin.RoundTables
/-
Rounding, square roots and reciprocals: `src/intrin/round.rs`,
`src/intrin/sqrt.rs`, `src/intrin/recip.rs`, `src/intrin/rsqrt.rs` and their
instances under `src/arch/x86/intrin` and `src/arch/unknown/intrin` (extracted to
`Verif/Intrin/RoundTables.lean`).
-/
namespace Faster
open Res

variable {α : Type} {n w : Nat}

/-! ### Rounding to an integer, on bit patterns

Not code of the crate: the meaning of Rust's `f32::round`, `ceil`, `floor` and
`trunc` and of the x86 rounding instructions. -/

/-- Rounding directions: towards −∞, +∞ or 0, to the nearest with ties to even, to
the nearest with ties away from zero. -/
inductive RoundDir | down | up | zero | even | away
  deriving DecidableEq, Repr

/-- Whether the magnitude is rounded up. `neg`: the sign; `odd`: the integer part
is odd; `exact`: there is no fractional part; `half`: the fractional part compared
with one half. -/
def RoundDir.carries (neg odd exact : Bool) (half : Ordering) : RoundDir → Bool
  | .down => neg && !exact
  | .up => !neg && !exact
  | .zero => false
  | .even => half == .gt || (half == .eq && odd)
  | .away => half != .lt

/-- Rounding of the magnitude bits `mag` of a float with `m` fraction bits and
exponent bias `b`: numbers with exponent `m` or more are integers (or infinite, or
NaN); numbers below one become zero or one; in between, the low `b + m - e` bits
are the fractional part, and adding one unit carries into the exponent if needed. -/
def roundMag (m b : Nat) (d : RoundDir) (neg : Bool) (mag : Nat) : Nat :=
  let e := mag / 2 ^ m
  if b + m ≤ e then mag
  else if e < b then
    if d.carries neg false (mag == 0) (compare mag ((b - 1) * 2 ^ m)) then b * 2 ^ m else 0
  else
    let k := b + m - e
    let frac := mag % 2 ^ k
    if d.carries neg ((2 ^ m + mag % 2 ^ m) / 2 ^ k % 2 == 1) (frac == 0)
        (compare frac (2 ^ (k - 1)))
    then mag - frac + 2 ^ k else mag - frac

/-- Fraction bits of `f32` and `f64`. -/
def mantBits (n : Nat) : Nat := if n = 32 then 23 else 52

/-- Exponent bias of `f32` and `f64`. -/
def expBias (n : Nat) : Nat := if n = 32 then 127 else 1023

/-- Rounding keeps the sign bit (NaNs are returned as they are). -/
def fround (d : RoundDir) (x : BitVec n) : BitVec n :=
  BitVec.ofNat n ((if x.msb then 2 ^ (n - 1) else 0) +
    roundMag (mantBits n) (expBias n) d x.msb (fmag x))

/-- Scalar method of a fallback lane: `f32::round` and `f64::round` round ties away
from zero. The other functions are not modelled (theorems about them take the
operation as a parameter). -/
def UnFn.dir : UnFn → Option RoundDir
  | .round => some .away
  | .ceil => some .up
  | .floor => some .down
  | .trunc => some .zero
  | _ => none

/-- Direction in the low bits of the immediate operand of ROUNDPS/PD (bit 2, "use
MXCSR", is never set in the crate). -/
def immDir : Nat → Option RoundDir
  | 0 => some .even
  | 1 => some .down
  | 2 => some .up
  | 3 => some .zero
  | _ => none

/-- Rounding instructions: register bits, bits per lane, direction. `_mm_ceil_ps`
and the like are ROUNDPS with a fixed direction. -/
def Instr.rounds (imm : Nat) : Instr → Option (Nat × Nat × RoundDir)
  | .mm_round_ps => (immDir imm).map (128, 32, ·)
  | .mm_round_pd => (immDir imm).map (128, 64, ·)
  | .mm256_round_ps => (immDir imm).map (256, 32, ·)
  | .mm256_round_pd => (immDir imm).map (256, 64, ·)
  | .mm_ceil_ps => some (128, 32, .up)
  | .mm_ceil_pd => some (128, 64, .up)
  | .mm256_ceil_ps => some (256, 32, .up)
  | .mm256_ceil_pd => some (256, 64, .up)
  | .mm_floor_ps => some (128, 32, .down)
  | .mm_floor_pd => some (128, 64, .down)
  | .mm256_floor_ps => some (256, 32, .down)
  | .mm256_floor_pd => some (256, 64, .down)
  | _ => none

/-! ### The macro -/

/-- Optimized version of `rust_fallback_impl!` (src/intrin/macros.rs:14-19):
`$mmfn(*self, $args)`. A vector of another type would not compile (`panic` here). -/
def roundInstr (i : Instr) (imm : Nat) (self : Vector (BitVec n) w) :
    Res (Vector (BitVec n) w) :=
  match i.rounds imm with
  | none => panic
  | some (total, lane, d) =>
    if n * w = total ∧ n = lane then ok (self.map (fround d)) else panic

/-- Fallback version of `rust_fallback_impl!` (src/intrin/macros.rs:21-26):
`Self::new(self.extract($n).$rustfn(), …)`. -/
def unaryFallback (op : α → α) (idx : List Nat) (self : Vector α w) : Res (Vector α w) :=
  newLanes (idx.map fun i => do
    let x ← Packed.extract self i
    ok (op x))

/-- `Round::{round, ceil, floor, trunc}` compiled with the instruction
(src/arch/x86/intrin/round.rs:15-49). -/
def roundOptimized (r : UnRow) (self : Vector (BitVec (8 * r.size)) r.width) :
    Res (Vector (BitVec (8 * r.size)) r.width) :=
  roundInstr r.mm r.imm self

/-- `Round::{round, ceil, floor, trunc}` without it (src/arch/x86/intrin/round.rs,
src/arch/unknown/intrin/round.rs). -/
def roundFallback (r : UnRow) (self : Vector (BitVec (8 * r.size)) r.width) :
    Res (Vector (BitVec (8 * r.size)) r.width) :=
  match r.fn.dir with
  | none => panic
  | some d => unaryFallback (fround d) r.idx self

/-- Scalar `rsqrt` (src/arch/x86/intrin/rsqrt.rs:28-40,
src/arch/unknown/intrin/rsqrt.rs:32-44): `self.sqrt().recip()`. -/
def rsqrtScalar (sqrt recip : α → α) (x : α) : α := recip (sqrt x)

/-- Scalar methods of the other fallbacks, given the scalar `sqrt` and `recip`. -/
def UnFn.scalar (sqrt recip : α → α) : UnFn → Option (α → α)
  | .sqrt => some sqrt
  | .recip => some recip
  | .rsqrt => some (rsqrtScalar sqrt recip)
  | _ => none

/-- `Sqrt::sqrt`, `Recip::recip` and `Rsqrt::rsqrt` without the instruction
(src/arch/x86/intrin/{sqrt,recip,rsqrt}.rs, src/arch/unknown/intrin/…). -/
def rootFallback (sqrt recip : α → α) (r : UnRow) (self : Vector α r.width) :
    Res (Vector α r.width) :=
  match r.fn.scalar sqrt recip with
  | none => panic
  | some f => unaryFallback f r.idx self

end Faster
