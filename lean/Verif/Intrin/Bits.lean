import Batteries.Data.BitVec
import Verif.Packed
/-
Bit-level view of SIMD vectors and reinterpretation between lane types
(`src/intrin/transmute.rs`). Lane types are represented by their bit patterns:
`u16`, `i16` are both `BitVec 16`, `f32` is its bit pattern in `BitVec 32`.
-/
namespace Faster
open Res

variable {m n w w' : Nat}

/-- Bit `p` of the memory image of a vector on a little-endian machine: lanes
in order of increasing address, least significant bit of each lane first
(positions past the end read as 0). -/
def bit (v : Vector (BitVec m) w) (p : Nat) : Bool :=
  match v[p / m]? with
  | some x => x.getLsbD (p % m)
  | none => false

/-- `mem::transmute` between vector types of equal size: `be_i8s`, `be_u8s`, …,
`be_f64s_unchecked` (src/intrin/transmute.rs:50-98) and the bare `transmute`
calls of src/arch/x86/intrin/*.rs. Lane `j` of the result consists of the bits
`j*n … j*n+n-1` of the memory image. (Rust rejects unequal sizes at compile
time; here the size equation is a hypothesis of the lemmas.) -/
def reinterpret (v : Vector (BitVec m) w) : Vector (BitVec n) w' :=
  Vector.ofFn fun j => BitVec.ofFnLE fun k : Fin n => bit v (j.val * n + k.val)

end Faster
