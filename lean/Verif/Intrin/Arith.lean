import Verif.Intrin.Shuffle
import Verif.Intrin.ArithTables
/-
Lane-wise arithmetic, comparisons and horizontal operations:
`src/intrin/macros.rs`, `src/intrin/eq.rs` and their instances under
`src/arch/x86/intrin` and `src/arch/unknown/intrin` (extracted to
`Verif/Intrin/ArithTables.lean`).
-/
namespace Faster
open Res

variable {α : Type} {n w : Nat}

/-! ### Scalars

Integers of both signs share the type `BitVec n`; the lane kind says how they
are read. -/

/-- The number denoted by an integer lane. -/
def Kind.value : Kind → BitVec n → Int
  | .i, x => x.toInt
  | _, x => x.toNat

/-- Smallest value of the lane type (`T::MIN`). -/
def Kind.lo (n : Nat) : Kind → Int
  | .i => -2 ^ (n - 1)
  | _ => 0

/-- Largest value of the lane type (`T::MAX`). -/
def Kind.hi (n : Nat) : Kind → Int
  | .i => 2 ^ (n - 1) - 1
  | _ => 2 ^ n - 1

/-- Rust's integer `+` and `-`: `x` is the exact result and `r` the wrapped
bits. Out of range, a debug build panics and a release build wraps. -/
def overflowCheck (c : Cfg) (k : Kind) (x : Int) (r : BitVec n) : Res (BitVec n) :=
  if k.lo n ≤ x ∧ x ≤ k.hi n then ok r else if c.debug then panic else ok r

/-- Rust's `saturating_add`: `checked_add`, and on overflow `MIN` or `MAX` by the
sign of the second operand. -/
def satAddScalar (k : Kind) (a b : BitVec n) : BitVec n :=
  let x := k.value a + k.value b
  if k.lo n ≤ x ∧ x ≤ k.hi n then a + b
  else BitVec.ofInt n (if k.value b < 0 then k.lo n else k.hi n)

/-- Rust's `saturating_sub`. -/
def satSubScalar (k : Kind) (a b : BitVec n) : BitVec n :=
  let x := k.value a - k.value b
  if k.lo n ≤ x ∧ x ≤ k.hi n then a - b
  else BitVec.ofInt n (if k.value b < 0 then k.hi n else k.lo n)

/-! #### Floats

Only comparisons are modelled (on the IEEE bit patterns of `f32` and `f64`);
float arithmetic stays abstract. -/

/-- Bit pattern of +∞ in the `n`-bit format. -/
def infBits (n : Nat) : Nat := if n = 32 then 0x7F800000 else 0x7FF0000000000000

/-- Exponent and mantissa bits. -/
def fmag (x : BitVec n) : Nat := x.toNat % 2 ^ (n - 1)

/-- NaN: magnitude bits above those of infinity. -/
def fnan (x : BitVec n) : Bool := infBits n < fmag x

/-- Sign-magnitude reading of the bits; ordered like the float values, both
zeros at 0. -/
def fkey (x : BitVec n) : Int := if x.msb then -(fmag x : Int) else fmag x

/-- IEEE `<` (false if an operand is NaN). -/
def flt (a b : BitVec n) : Bool := !fnan a && !fnan b && fkey a < fkey b

/-- IEEE `==` (false if an operand is NaN). -/
def feq (a b : BitVec n) : Bool := !fnan a && !fnan b && fkey a == fkey b

/-- Rust's `f32::min`/`f64::min`: the other operand if one is NaN. (For two zeros
of different sign Rust leaves the choice open; this takes the second.) -/
def fminScalar (a b : BitVec n) : BitVec n :=
  if fnan a then b else if fnan b then a else if flt a b then a else b

/-- Rust's `f32::max`/`f64::max`. -/
def fmaxScalar (a b : BitVec n) : BitVec n :=
  if fnan a then b else if fnan b then a else if flt b a then a else b

/-- The scalar operation of a fallback lane: integer operators, inherent
methods, `Ord::min`/`Ord::max`, `f32::min`/`f32::max`. Float `+` and `-` are not
modelled here (theorems about them take the operation as a parameter). -/
def Fn.eval (c : Cfg) (k : Kind) : Fn → BitVec n → BitVec n → Res (BitVec n)
  | .add, a, b => if k = .f then panic else overflowCheck c k (k.value a + k.value b) (a + b)
  | .sub, a, b => if k = .f then panic else overflowCheck c k (k.value a - k.value b) (a - b)
  | .saturating_add, a, b => ok (satAddScalar k a b)
  | .saturating_sub, a, b => ok (satSubScalar k a b)
  | .min, a, b => ok (if k = .f then fminScalar a b else if k.value b < k.value a then b else a)
  | .max, a, b => ok (if k = .f then fmaxScalar a b else if k.value b < k.value a then a else b)
  | .eq, a, b =>
    ok (if (if k = .f then feq a b else a == b) then BitVec.allOnes n else 0#n)

/-! ### Lane-wise instructions -/

namespace X86

/-- `_mm_min_ps/pd`, `_mm256_min_ps/pd` (MINPS/PD): the second operand unless the
first is smaller. -/
def minF (a b : BitVec n) : BitVec n := if flt a b then a else b
/-- `_mm_max_ps/pd`, `_mm256_max_ps/pd` (MAXPS/PD): the second operand unless the
first is larger. -/
def maxF (a b : BitVec n) : BitVec n := if flt b a then a else b
/-- `_mm_cmpeq_ps/pd`, `_mm256_cmp_ps/pd` with predicate 0 (EQ_OQ). -/
def cmpeqF (a b : BitVec n) : BitVec n := if feq a b then BitVec.allOnes n else 0#n

end X86

/-- Lane operations of the two-operand instructions. -/
inductive LaneOp
  | addsEpi | addsEpu | subsEpi | subsEpu | minEpi | minEpu | maxEpi | maxEpu | minF | maxF
  | cmpeqEpi | cmpeqF
  deriving DecidableEq

/-- Meaning of a lane operation. -/
def LaneOp.eval : LaneOp → BitVec n → BitVec n → BitVec n
  | .addsEpi => X86.addsEpi
  | .addsEpu => X86.addsEpu
  | .subsEpi => X86.subsEpi
  | .subsEpu => X86.subsEpu
  | .minEpi => X86.minEpi
  | .minEpu => X86.minEpu
  | .maxEpi => X86.maxEpi
  | .maxEpu => X86.maxEpu
  | .minF => X86.minF
  | .maxF => X86.maxF
  | .cmpeqEpi => X86.cmpeqEpi
  | .cmpeqF => X86.cmpeqF

/-- A lane-wise two-operand instruction: register bits, bits per lane, operation. -/
structure LaneInstr where
  total : Nat
  lane : Nat
  op : LaneOp
  deriving DecidableEq

/-- Lane-wise two-operand instructions. -/
def Instr.lanes : Instr → Option LaneInstr
  | .mm_adds_epi8 => some ⟨128, 8, .addsEpi⟩
  | .mm_adds_epi16 => some ⟨128, 16, .addsEpi⟩
  | .mm_adds_epu8 => some ⟨128, 8, .addsEpu⟩
  | .mm_adds_epu16 => some ⟨128, 16, .addsEpu⟩
  | .mm256_adds_epi8 => some ⟨256, 8, .addsEpi⟩
  | .mm256_adds_epi16 => some ⟨256, 16, .addsEpi⟩
  | .mm256_adds_epu8 => some ⟨256, 8, .addsEpu⟩
  | .mm256_adds_epu16 => some ⟨256, 16, .addsEpu⟩
  | .mm_subs_epi8 => some ⟨128, 8, .subsEpi⟩
  | .mm_subs_epi16 => some ⟨128, 16, .subsEpi⟩
  | .mm_subs_epu8 => some ⟨128, 8, .subsEpu⟩
  | .mm_subs_epu16 => some ⟨128, 16, .subsEpu⟩
  | .mm256_subs_epi8 => some ⟨256, 8, .subsEpi⟩
  | .mm256_subs_epi16 => some ⟨256, 16, .subsEpi⟩
  | .mm256_subs_epu8 => some ⟨256, 8, .subsEpu⟩
  | .mm256_subs_epu16 => some ⟨256, 16, .subsEpu⟩
  | .mm_min_epi8 => some ⟨128, 8, .minEpi⟩
  | .mm_min_epi16 => some ⟨128, 16, .minEpi⟩
  | .mm_min_epi32 => some ⟨128, 32, .minEpi⟩
  | .mm_min_epu8 => some ⟨128, 8, .minEpu⟩
  | .mm_min_epu16 => some ⟨128, 16, .minEpu⟩
  | .mm_min_epu32 => some ⟨128, 32, .minEpu⟩
  | .mm_max_epi8 => some ⟨128, 8, .maxEpi⟩
  | .mm_max_epi16 => some ⟨128, 16, .maxEpi⟩
  | .mm_max_epi32 => some ⟨128, 32, .maxEpi⟩
  | .mm_max_epu8 => some ⟨128, 8, .maxEpu⟩
  | .mm_max_epu16 => some ⟨128, 16, .maxEpu⟩
  | .mm_max_epu32 => some ⟨128, 32, .maxEpu⟩
  | .mm256_min_epi8 => some ⟨256, 8, .minEpi⟩
  | .mm256_min_epi16 => some ⟨256, 16, .minEpi⟩
  | .mm256_min_epi32 => some ⟨256, 32, .minEpi⟩
  | .mm256_min_epu8 => some ⟨256, 8, .minEpu⟩
  | .mm256_min_epu16 => some ⟨256, 16, .minEpu⟩
  | .mm256_min_epu32 => some ⟨256, 32, .minEpu⟩
  | .mm256_max_epi8 => some ⟨256, 8, .maxEpi⟩
  | .mm256_max_epi16 => some ⟨256, 16, .maxEpi⟩
  | .mm256_max_epi32 => some ⟨256, 32, .maxEpi⟩
  | .mm256_max_epu8 => some ⟨256, 8, .maxEpu⟩
  | .mm256_max_epu16 => some ⟨256, 16, .maxEpu⟩
  | .mm256_max_epu32 => some ⟨256, 32, .maxEpu⟩
  | .mm_min_ps => some ⟨128, 32, .minF⟩
  | .mm_min_pd => some ⟨128, 64, .minF⟩
  | .mm256_min_ps => some ⟨256, 32, .minF⟩
  | .mm256_min_pd => some ⟨256, 64, .minF⟩
  | .mm_max_ps => some ⟨128, 32, .maxF⟩
  | .mm_max_pd => some ⟨128, 64, .maxF⟩
  | .mm256_max_ps => some ⟨256, 32, .maxF⟩
  | .mm256_max_pd => some ⟨256, 64, .maxF⟩
  | .mm_cmpeq_epi8 => some ⟨128, 8, .cmpeqEpi⟩
  | .mm_cmpeq_epi16 => some ⟨128, 16, .cmpeqEpi⟩
  | .mm_cmpeq_epi32 => some ⟨128, 32, .cmpeqEpi⟩
  | .mm_cmpeq_epi64 => some ⟨128, 64, .cmpeqEpi⟩
  | .mm256_cmpeq_epi8 => some ⟨256, 8, .cmpeqEpi⟩
  | .mm256_cmpeq_epi16 => some ⟨256, 16, .cmpeqEpi⟩
  | .mm256_cmpeq_epi32 => some ⟨256, 32, .cmpeqEpi⟩
  | .mm256_cmpeq_epi64 => some ⟨256, 64, .cmpeqEpi⟩
  | .mm_cmpeq_ps => some ⟨128, 32, .cmpeqF⟩
  | .mm_cmpeq_pd => some ⟨128, 64, .cmpeqF⟩
  | .mm256_cmp_ps => some ⟨256, 32, .cmpeqF⟩
  | .mm256_cmp_pd => some ⟨256, 64, .cmpeqF⟩
  | _ => none

/-- Optimized version of `rust_fallback_impl_binary!` and `rust_fallback_eq!`
(src/intrin/macros.rs:40-43, src/intrin/eq.rs:53-58):
`transmute($mmfn(transmute(*self), transmute(other), …))`. A register of another
size would not compile (`panic` here). -/
def binaryInstr (i : Instr) (self other : Vector (BitVec n) w) : Res (Vector (BitVec n) w) :=
  match i.lanes with
  | none => panic
  | some l =>
    if n * w = l.total then
      ok (reinterpret (X86.lanewise (w := l.total / l.lane) (l.op.eval (n := l.lane))
        (reinterpret self) (reinterpret other)))
    else panic

/-- Fallback version of `rust_fallback_impl_binary!` (src/intrin/macros.rs:45-50)
and `rust_fallback_eq!` (src/intrin/eq.rs:60-72). -/
def binaryFallback (op : α → α → Res α) (idx : List Nat) (self other : Vector α w) :
    Res (Vector α w) :=
  newLanes (idx.map fun i => do
    let x ← Packed.extract self i
    let y ← Packed.extract other i
    op x y)

/-- `Eq::ne_mask` (src/intrin/eq.rs:42-43): `eq_mask ^ ones()`, lane-wise xor. -/
def neMask (eqMask : Vector (BitVec n) w) : Vector (BitVec n) w :=
  Vector.ofFn fun i => eqMask[i] ^^^ (ones : Vector (BitVec n) w)[i]

/-! ### Horizontal operations -/

/-- `hop!` (src/intrin/macros.rs:56-65). -/
def hop (op : α → α → Res α) (idx : List Nat) (self other : Vector α w) : Res (Vector α w) :=
  newLanes ((pairs idx).flatMap fun p =>
    [do let x ← Packed.extract self p.1
        let y ← Packed.extract self p.2
        op x y,
     do let x ← Packed.extract other p.1
        let y ← Packed.extract other p.2
        op x y])

/-- Optimized `hadd`, `hsub`, `saturating_hadd`, `saturating_hsub` by unpacking
pairs of lanes (src/arch/x86/intrin/hadd.rs:36-44 for f32x8, 55-63 for i16x8,
65-73 for i32x4, 75-83 for i16x16, 85-93 for i32x8; hsub.rs:35-43, 54-92;
saturating_hadd.rs:15-33; saturating_hsub.rs:15-33). `n` is the lane size,
`e = 128 / n`; the unpack works on lanes of `2 * n` bits; `f` is the lane
operation of the horizontal instruction. -/
def hopUnpack (e : Nat) (f : BitVec n → BitVec n → BitVec n) (self other : Vector (BitVec n) w) :
    Vector (BitVec n) w :=
  let a : Vector (BitVec (2 * n)) (w / 2) := reinterpret self
  let b : Vector (BitVec (2 * n)) (w / 2) := reinterpret other
  X86.horizontal e f (reinterpret (X86.unpacklo (e / 2) a b)) (reinterpret (X86.unpackhi (e / 2) a b))

/-- Optimized `hadd`/`hsub` of f32x4 (src/arch/x86/intrin/hadd.rs:16-24,
hsub.rs:16-24). -/
def hopShufflePs (f : BitVec 32 → BitVec 32 → BitVec 32) (self other : Vector (BitVec 32) 4) :
    Vector (BitVec 32) 4 :=
  X86.horizontal 4 f (X86.shufflePs self other 0b01000100) (X86.shufflePs self other 0b11101110)

/-- Optimized `hadd`/`hsub` of f64x2 and f64x4 (src/arch/x86/intrin/hadd.rs:26-34,
46-53; hsub.rs:26-33, 45-52). -/
def hopPd (f : BitVec 64 → BitVec 64 → BitVec 64) (self other : Vector (BitVec 64) w) :
    Vector (BitVec 64) w :=
  X86.horizontal 2 f self other

end Faster
