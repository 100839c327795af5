import Verif.BenchZip
import Verif.SoftExamples
/-
The benchmarks `stride_zip_naive` and `stride_zip` of benches/usage.rs on targets without vector
instructions, where the sum of two vectors of u8 panics on overflow if the build checks for it.
-/
namespace Faster
open Res

/-- `stride_zip_naive` (benches/usage.rs:348-356) on any slice, with the operators of the software
vectors (src/arch/unknown/vecs.rs:181-197). -/
def strideZipNaiveSoft (w : Nat) (c : Cfg) (fuel : Nat) (data : List (BitVec 8)) :
    Res (List (Option (BitVec 8))) := do
  let t := strideTwo (⟨data⟩ : Slice (BitVec 8) w) ((Packed.splat 0#8 : Vector _ w), Packed.splat 0#8)
  let z ← zip c t.1 (t.2, ())
  let (_, out) ← scalarCollect c fuel (zsimdMap z ()
    (fun _ (v : Vector (BitVec 8) w × Vector (BitVec 8) w × Unit) => do
      ok (← Soft.binop (addInt c .u) 0#8 v.1 v.2.1, ())))
  ok out

/-- `stride_zip` (benches/usage.rs:358-366), likewise. -/
def strideZipSoft (w : Nat) (c : Cfg) (fuel : Nat) (data : List (BitVec 8)) :
    Res (List (Option (BitVec 8))) := do
  let z ← strideZip c (simdIter (w := w) data (Packed.splat 0#8))
  let (_, out) ← scalarCollect c fuel (zsimdMap z ()
    (fun _ (v : Vector (BitVec 8) w × Vector (BitVec 8) w) => do
      ok (← Soft.binop (addInt c .u) 0#8 v.1 v.2, ())))
  ok out

end Faster
