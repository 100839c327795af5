import Verif.Soft
import Verif.Intrin.Ieee
import Verif.Intrin.Sum
/-
Conversions between integers and floats: the casts of the software vectors
(src/arch/unknown/vecs.rs:214-227, 462-520) with the meaning of the scalar `as`, and
`sum_upcast` of float vectors (src/intrin/sum.rs:35-47).
-/
namespace Faster
open Res

variable {n k w : Nat}

/-- The scalar `x as T`, from a number of kind `a` to one of kind `b`. -/
def asScalar (a b : Kind) (x : BitVec n) : BitVec k :=
  match a, b with
  | .f, .f => fconv k x
  | .f, b => ftoInt b k x
  | a, .f => fofInt k (a.value x)
  | .i, _ => x.signExtend k
  | _, _ => x.zeroExtend k

/-- The element types of vectors by name: kind and number of bits. -/
def elType : String → Option (Kind × Nat)
  | "u8" => some (.u, 8)
  | "u16" => some (.u, 16)
  | "u32" => some (.u, 32)
  | "u64" => some (.u, 64)
  | "i8" => some (.i, 8)
  | "i16" => some (.i, 16)
  | "i32" => some (.i, 32)
  | "i64" => some (.i, 64)
  | "f32" => some (.f, 32)
  | "f64" => some (.f, 64)
  | _ => none

/-- `impl_packed_upcast_sum!` (src/intrin/sum.rs:35-47) for float types:
`scalar_reduce(0i64, |acc, s| acc + (s as i64))`. -/
def sumUpcastFloat (c : Cfg) (v : Vector (BitVec n) w) : Res (BitVec 64) :=
  Packed.scalarReduce v 0#64 fun acc s =>
    overflowCheck c .i (acc.toInt + (ftoInt .i 64 s).toInt) (acc + ftoInt .i 64 s)

end Faster
