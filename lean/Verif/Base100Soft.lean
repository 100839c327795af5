import Verif.Base100
import Verif.SoftExamples
/-
The vector version of the base100 encoder in benches/usage.rs on targets without vector instructions:
the operators of the vector types (src/arch/unknown/vecs.rs:181-197) use the operators of the lanes,
which panic on overflow if the build checks for it.
-/
namespace Faster
open Res

/-- `/` of unsigned integers: panics if the divisor is zero. -/
def divUint {n : Nat} (a b : BitVec n) : Res (BitVec n) := if b = 0 then panic else ok (a / b)

/-- `&` of integers. -/
def andInt {n : Nat} (a b : BitVec n) : Res (BitVec n) := ok (a &&& b)

/-- The closure of `base100_enc_simd` (benches/usage.rs:304-328) with the operators of the software
vectors. Otherwise as `base100Body`. -/
def base100BodySoft {q : Nat} (o : Base100Ops q) (c : Cfg) :
    FnMut (List (BitVec 8) × Nat) (Vector (BitVec 8) (4 * q)) Unit := fun (out, i) v => do
  let (a, b) ← o.up8 v
  let a1 ← Soft.binop (addInt c .u) 0#16 a (Packed.splat 55#16)
  let a2 ← Soft.binop divUint 0#16 a1 (Packed.splat 64#16)
  let a3 ← Soft.binop (addInt c .u) 0#16 a2 (Packed.splat 143#16)
  let b1 ← Soft.binop (addInt c .u) 0#16 b (Packed.splat 55#16)
  let b2 ← Soft.binop divUint 0#16 b1 (Packed.splat 64#16)
  let b3 ← Soft.binop (addInt c .u) 0#16 b2 (Packed.splat 143#16)
  let third ← o.down16 a3 b3
  let v1 ← Soft.binop (addInt c .u) 0#8 v (Packed.splat 55#8)
  let v2 ← Soft.binop andInt 0#8 v1 (Packed.splat 0x3f#8)
  let fourth ← Soft.binop (addInt c .u) 0#8 v2 (Packed.splat 128#8)
  let (ta, tb) ← o.up8 third
  let (fa, fb) ← o.up8 fourth
  let thirdFourthA ← o.merge16 (← o.swap16 ta) fa
  let thirdFourthB ← o.merge16 (← o.swap16 tb) fb
  let (tfa, tfb) ← o.up16 thirdFourthA
  let (tfc, tfd) ← o.up16 thirdFourthB
  let u ← o.merge32 (Packed.splat 0xf09f0000#32) tfa
  let out ← Packed.store (reinterpret u : Vector (BitVec 8) (4 * q)) out i
  let u ← o.merge32 (Packed.splat 0xf09f0000#32) tfb
  let out ← Packed.store (reinterpret u : Vector (BitVec 8) (4 * q)) out (← uadd c i (4 * q))
  let u ← o.merge32 (Packed.splat 0xf09f0000#32) tfc
  let out ← Packed.store (reinterpret u : Vector (BitVec 8) (4 * q)) out
    (← uadd c i (← umul c (4 * q) 2))
  let u ← o.merge32 (Packed.splat 0xf09f0000#32) tfd
  let out ← Packed.store (reinterpret u : Vector (BitVec 8) (4 * q)) out
    (← uadd c i (← umul c (4 * q) 3))
  let i ← uadd c i (← umul c (4 * q) 4)
  ok ((), (out, i))

/-- `base100_enc_simd` (benches/usage.rs:300-331) on any data and any buffer, with the operators of the
software vectors. -/
def base100SimdSoft {q : Nat} (o : Base100Ops q) (c : Cfg) (fuel : Nat) (data out : List (BitVec 8)) :
    Res (List (BitVec 8)) := do
  let (_, out, _) ← simdDoEach c fuel (simdIter data (Packed.splat 0#8)) (out, 0) (base100BodySoft o c)
  ok out

end Faster
