import Verif.Soft
import Verif.Intrin.Arith
import Verif.Iters
import Verif.Stride
import Verif.Zip
/-
The integer programs of examples/main.rs on targets without vector instructions: the operators of
the vector types (src/arch/unknown/vecs.rs:181-197) use the operators of the lanes, which panic on
overflow if the build checks for it.
-/
namespace Faster
open Res

/-- `+`, `-`, `*` of Rust's integers: checked in debug builds, wrapping in release builds. Used for
the lanes by `impl_ops!` (src/arch/unknown/vecs.rs:181-197). -/
def addInt {n : Nat} (c : Cfg) (k : Kind) (a b : BitVec n) : Res (BitVec n) :=
  overflowCheck c k (k.value a + k.value b) (a + b)
/-- As `addInt`. -/
def subInt {n : Nat} (c : Cfg) (k : Kind) (a b : BitVec n) : Res (BitVec n) :=
  overflowCheck c k (k.value a - k.value b) (a - b)
/-- As `addInt`. -/
def mulInt {n : Nat} (c : Cfg) (k : Kind) (a b : BitVec n) : Res (BitVec n) :=
  overflowCheck c k (k.value a * k.value b) (a * b)

/-- `lots_of_84s` (examples/main.rs:14-17) on any slice, with the operators of the software
vectors; `abs` is `i8s::abs`, `be_i8s` keeps the bits. -/
def exampleAbsSoft {w : Nat} (abs : Vector (BitVec 8) w → Res (Vector (BitVec 8) w)) (c : Cfg)
    (fuel : Nat) (data : List (BitVec 8)) : Res (List (Option (BitVec 8))) := do
  let (_, out) ← scalarCollect c fuel (simdMap (simdMap (simdIter data (Packed.splat 0#8)) ()
    (fun _ v => do
      let a ← abs v
      let m ← Soft.binop (mulInt c .i) 0#8 (Packed.splat 9#8) a
      let s ← Soft.binop (subInt c .i) 0#8 m (Packed.splat 4#8)
      let t ← Soft.binop (subInt c .i) 0#8 s (Packed.splat 2#8)
      ok (t, ())))
    () (fun _ (v : Vector (BitVec 8) w) => ok (v, ())))
  ok out

/-- `filled_u8s` (examples/main.rs:29-32) on any slice and any buffer, with the operators of the
software vectors. -/
def exampleFillSoft (w : Nat) (c : Cfg) (fuel : Nat) (data buf : List (BitVec 8)) :
    Res (List (BitVec 8)) := do
  let (_, out) ← scalarFill c fuel (simdMap (simdIter (w := w) data (Packed.splat 0#8)) ()
    (fun _ (v : Vector (BitVec 8) w) => do
      let m ← Soft.binop (mulInt c .u) 0#8 v (Packed.splat 2#8)
      ok (m, ()))) buf
  ok out

/-- `strided` (examples/main.rs:37-39) on any slice, with the operators of the software vectors. -/
def exampleStridedSoft (w : Nat) (c : Cfg) (fuel : Nat) (data : List (BitVec 32)) :
    Res (List (Option (BitVec 32))) := do
  let t := strideTwo (⟨data⟩ : Slice (BitVec 32) w) ((Packed.splat 99#32 : Vector _ w), Packed.splat 99#32)
  let z ← zip c t.1 (t.2, ())
  let (_, out) ← scalarCollect c fuel (zsimdMap z ()
    (fun _ (v : Vector (BitVec 32) w × Vector (BitVec 32) w × Unit) => do
      let s ← Soft.binop (addInt c .u) 0#32 v.1 v.2.1
      ok (s, ())))
  ok out

end Faster
