import Verif.Iters
import Verif.Intrin.Ieee
import Verif.Intrin.Sum
/-
Float programs which use the crate: benches/intrin.rs, the float pipelines of
benches/usage.rs and of examples/main.rs, each on any slice. The functions of the vector
types are parameters; which instructions they are depends on the target. The operators of
vectors are those of the hardware, lane by lane.
-/
namespace Faster
open Res SIMDSized SIMDIterable SIMDIterator

variable {w : Nat}

/-- `Round::{round, ceil, floor, trunc}` (src/arch/x86/intrin/round.rs,
src/arch/unknown/intrin/round.rs), with the instruction if there is one and `opt`. -/
def roundOf (opt : Bool) (r : UnRow) (v : Vector (BitVec (8 * r.size)) r.width) :
    Res (Vector (BitVec (8 * r.size)) r.width) :=
  if opt && r.mm != .undefined then roundOptimized r v else roundFallback r v

/-- `Cmp::{min, max}` for floats (src/arch/x86/intrin/cmp.rs, src/arch/unknown/intrin/cmp.rs),
with the instruction if there is one and `opt`. -/
def fcmpOf (opt : Bool) (c : Cfg) (r : BinRow) (a b : Vector (BitVec (8 * r.size)) r.width) :
    Res (Vector (BitVec (8 * r.size)) r.width) :=
  cmpOf c (opt && r.mm != .undefined) r a b

/-! ### benches/intrin.rs -/

/-- The closures of `bench_intrin_1!` (benches/intrin.rs:21-23):
`ARRAY_F32.simd_iter(f32s(0.0)).simd_map(|v| simd_fn(v)).scalar_collect()`. -/
def intrinSimd (f : Vector (BitVec 32) w → Res (Vector (BitVec 32) w)) (c : Cfg) (fuel : Nat)
    (data : List (BitVec 32)) : Res (List (Option (BitVec 32))) := do
  let (_, out) ← scalarCollect c fuel (simdMap (simdIter data (Packed.splat 0#32)) ()
    (fun _ v => do ok (← f v, ())))
  ok out

/-- The closures of `bench_intrin_2!` (benches/intrin.rs:41-43): `v.simd_fn(v)`. -/
def intrinSimd2 (f : Vector (BitVec 32) w → Vector (BitVec 32) w → Res (Vector (BitVec 32) w))
    (c : Cfg) (fuel : Nat) (data : List (BitVec 32)) : Res (List (Option (BitVec 32))) :=
  intrinSimd (fun v => f v v) c fuel data

/-- The scalar versions (benches/intrin.rs:13-15, 33-35): `iter().map(…).collect()`. -/
def intrinScalar (f : BitVec 32 → BitVec 32) (data : List (BitVec 32)) : List (BitVec 32) :=
  data.map f

/-! ### The curve of benches/usage.rs and examples/main.rs -/

/-- The operations of `f32s` which the pipelines use. -/
structure F32Ops (w : Nat) where
  /-- `f32s::abs` -/
  abs : Vector (BitVec 32) w → Res (Vector (BitVec 32) w)
  /-- `f32s::sqrt` -/
  sqrt : Vector (BitVec 32) w → Res (Vector (BitVec 32) w)
  /-- `f32s::rsqrt` -/
  rsqrt : Vector (BitVec 32) w → Res (Vector (BitVec 32) w)
  /-- `f32s::ceil` -/
  ceil : Vector (BitVec 32) w → Res (Vector (BitVec 32) w)
  /-- `f32s::floor` -/
  floor : Vector (BitVec 32) w → Res (Vector (BitVec 32) w)

/-- `9.0`, `4.0` and `2.0` as `f32`. -/
def f32Nine : BitVec 32 := 0x41100000#32
@[inherit_doc f32Nine]
def f32Four : BitVec 32 := 0x40800000#32
@[inherit_doc f32Nine]
def f32Two : BitVec 32 := 0x40000000#32

/-- `f32s(9.0) * v.abs().sqrt().rsqrt().ceil().sqrt()` (benches/usage.rs:35, 181, 190). -/
def curveVec (o : F32Ops w) (v : Vector (BitVec 32) w) : Res (Vector (BitVec 32) w) := do
  let a ← o.abs v
  let b ← o.sqrt a
  let d ← o.rsqrt b
  let e ← o.ceil d
  let g ← o.sqrt e
  ok (Vector.zipWith fmul (Packed.splat f32Nine) g)

/-- The closure of `map_simd`, `map_fill_simd`, `map_uneven_simd` (benches/usage.rs:34-36,
147-149, 158-160) and `lots_of_3s` (examples/main.rs:20-21): the curve minus 4.0 and 2.0. -/
def mapVec (o : F32Ops w) (v : Vector (BitVec 32) w) : Res (Vector (BitVec 32) w) := do
  let g ← curveVec o v
  ok (Vector.zipWith fsub (Vector.zipWith fsub g (Packed.splat f32Four)) (Packed.splat f32Two))

/-- `map_simd` and `map_uneven_simd` (benches/usage.rs:31-38, 155-162), `lots_of_3s`
(examples/main.rs:19-22). -/
def mapSimd (o : F32Ops w) (c : Cfg) (fuel : Nat) (data : List (BitVec 32)) :
    Res (List (Option (BitVec 32))) :=
  intrinSimd (mapVec o) c fuel data

/-- `map_fill_simd` (benches/usage.rs:143-151); the buffer after it. -/
def mapFillSimd (o : F32Ops w) (c : Cfg) (fuel : Nat) (data buf : List (BitVec 32)) :
    Res (List (BitVec 32)) := do
  let (_, out) ← scalarFill c fuel (simdMap (simdIter data (Packed.splat 0#32)) ()
    (fun _ v => do ok (← mapVec o v, ()))) buf
  ok out

/-- `9.0 * v.abs().sqrt().sqrt().recip().ceil().sqrt()`, with `recip` after the second root
replaced by `rsqrt` of the first if `rsqrt` is not the fallback. -/
def curveScalar (rsqrt : BitVec 32 → BitVec 32) (x : BitVec 32) : BitVec 32 :=
  fmul f32Nine (fsqrt (fround .up (rsqrt (fsqrt (fabsScalar x)))))

/-- The scalar `recip` of a root (benches/usage.rs:170: `.sqrt().recip()`). -/
def rsqrtExact (x : BitVec 32) : BitVec 32 := frecip (fsqrt x)

/-- `map_scalar` (benches/usage.rs:166-174), `lots_of_3s_sc` (examples/main.rs:24-27). -/
def mapScalar (data : List (BitVec 32)) : List (BitVec 32) :=
  data.map fun v => fsub (fsub (curveScalar rsqrtExact v) f32Four) f32Two

/-- `reduce_simd` and `reduce_uneven_simd` (benches/usage.rs:177-183, 186-192). -/
def reduceSimd (o : F32Ops w) (sum : Vector (BitVec 32) w → Res (BitVec 32)) (c : Cfg) (fuel : Nat)
    (data : List (BitVec 32)) : Res (BitVec 32) := do
  let (_, acc, _) ← simdReduce c fuel (simdIter data (Packed.splat 0#32)) (Packed.splat 0#32) ()
    (fun _ a v => do
      let g ← curveVec o v
      ok (Vector.zipWith fadd a g, ()))
  sum acc

/-- `reduce_scalar` (benches/usage.rs:195-201). -/
def reduceScalar (data : List (BitVec 32)) : BitVec 32 :=
  data.foldl (fun a v => fadd a (curveScalar rsqrtExact v)) 0#32

/-- `reduced` (examples/main.rs:34-35): the sum of `v.abs().sqrt().sqrt().floor()`. -/
def exampleReduced (o : F32Ops w) (sum : Vector (BitVec 32) w → Res (BitVec 32)) (c : Cfg)
    (fuel : Nat) (data : List (BitVec 32)) : Res (BitVec 32) := do
  let (_, acc, _) ← simdReduce c fuel (simdIter data (Packed.splat 0#32)) (Packed.splat 0#32) ()
    (fun _ a v => do
      let x ← o.abs v
      let y ← o.sqrt x
      let z ← o.sqrt y
      let t ← o.floor z
      ok (Vector.zipWith fadd a t, ()))
  sum acc

/-! ### The high latency benchmark -/

/-- The operations of `high_latency`. `f32s` has `2 * q` lanes, `f64s` has `q`. -/
structure LatencyOps (q : Nat) where
  /-- `f32s::upcast` -/
  up : Vector (BitVec 32) (2 * q) → Res (Vector (BitVec 64) q × Vector (BitVec 64) q)
  /-- `f64s::sqrt` -/
  sqrt : Vector (BitVec 64) q → Res (Vector (BitVec 64) q)
  /-- `f64s::saturating_downcast` -/
  down : Vector (BitVec 64) q → Vector (BitVec 64) q → Res (Vector (BitVec 32) (2 * q))

/-- `1.20` as `f32` and `3.141592653589793` as `f64`. -/
def f32OneTwo : BitVec 32 := 0x3F99999A#32
@[inherit_doc f32OneTwo]
def f64Pi : BitVec 64 := 0x400921FB54442D18#64

/-- `f32s::upcast` (src/arch/x86/intrin/upcast.rs, src/arch/unknown/intrin/upcast.rs) with
the conversion instruction if there is one and `opt`. -/
def upFloat {n k w w' : Nat} (opt : Bool) (r : UpRow) (v : Vector (BitVec n) w) :
    Res (Vector (BitVec k) w' × Vector (BitVec k) w') :=
  match opt, r.mm with
  | true, some mm => upcastInstr (toFloat r.kind) mm v
  | _, _ => upcastFallback (widen (toFloat r.kind) r.kind r.toKind) r.first r.second v

/-- The closure of `high_latency` (benches/usage.rs:75-78). -/
def latencyVec {q : Nat} (o : LatencyOps q) (v : Vector (BitVec 32) (2 * q)) :
    Res (Vector (BitVec 32) (2 * q)) := do
  let (a, b) ← o.up (Vector.zipWith fmul v (Packed.splat f32OneTwo))
  let x ← o.sqrt a
  let y ← o.sqrt b
  o.down (Vector.zipWith fmul x (Packed.splat f64Pi)) (Vector.zipWith fmul y (Packed.splat f64Pi))

/-- `high_latency` (benches/usage.rs:72-82); the buffer after it. -/
def highLatency {q : Nat} (o : LatencyOps q) (c : Cfg) (fuel : Nat) (data buf : List (BitVec 32)) :
    Res (List (BitVec 32)) := do
  let (_, out) ← scalarFill c fuel (simdMap (simdIter data (Packed.splat 0#32)) ()
    (fun _ v => do ok (← latencyVec o v, ()))) buf
  ok out

end Faster
